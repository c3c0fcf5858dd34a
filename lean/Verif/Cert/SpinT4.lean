import Verif.Ein.Spin
import Verif.Cert.Thin
import Verif.Gen.SiT4_0
import Verif.Gen.SiT4_1
import Verif.Gen.SiT4_2
import Verif.Gen.SiT4_3
import Verif.Gen.SiT4_4
import Verif.Wick.Box
import Verif.Gen.Qf
import Verif.Gen.SiTest_aaaa
import Verif.Gen.SiTest_abab
import Verif.Gen.SiTest_bbbb
import Verif.Gen.SiQf

/-! Written by `/verif/tools/gen.py`. Checks of einsum programs. -/

set_option maxRecDepth 100000

namespace Verif.Cert

open Verif.Ein Verif.Ein.N


open Verif.Gen

def ccsdtq_t4_aaaaaaaa_cert_0 : List Nat := [11531498049961205824,
  11531498049961205824,
  11531498049927659584,
  11531498049927659584,
  11531497912488714304,
  11531497775116861504,
  11531498049961197634,
  11531498049961197634,
  11531498049927643204,
  11531498049894105154,
  11531497912488689734,
  11531497637677908034,
  11531498049894105154,
  11531498049927643204,
  11531497912455159874,
  11531497775116845124,
  11531498049894096964,
  11531498049894096964,
  11531497912455143494,
  11531497637677899844,
  11531497775016206404,
  11531497775016206404,
  11531497775016198214,
  11531497637610807364,
  11531498047814246464,
  11531498047814246464,
  11531498047780700224,
  11531498047780700224,
  11531497910341754944,
  11531497772969902144,
  11531498047814238274,
  11531498047814238274,
  11531498047780683844,
  11531498047747145794,
  11531497910341730374,
  11531497635530948674,
  11531498047747145794,
  11531498047780683844,
  11531497910308200514,
  11531497772969885764,
  11531498047747137604,
  11531498047747137604,
  11531497910308184134,
  11531497635530940484,
  11531497772869247044,
  11531497772869247044,
  11531497772869238854,
  11531497635463848004,
  11531489251721748544,
  11531480459923169344,
  11531489251688202304,
  11531480459889623104,
  11531489114249257024,
  11531480185078825024,
  11531489251721740354,
  11531480459923161154,
  11531489251688185924,
  11531480459856068674,
  11531489114249232454,
  11531480047639871554,
  11531489251654647874,
  11531480459889606724,
  11531489114215702594,
  11531480185078808644,
  11531489251654639684,
  11531480459856060484,
  11531489114215686214,
  11531480047639863364,
  11531488976776749124,
  11531480184978169924,
  11531488976776740934,
  11531480047572770884,
  9226217986406490304,
  9226217988552925504,
  9226217986372944064,
  9226217988519379264,
  9226217848933998784,
  9226217713708581184,
  9226217986406482114,
  9226217988552917314,
  9226217986372927684,
  9226217988485824834,
  9226217848933974214,
  9226217576269627714,
  9226217986339389634,
  9226217988519362884,
  9226217848900444354,
  9226217713708564804,
  9226217986339381444,
  9226217988485816644,
  9226217848900427974,
  9226217576269619524,
  9226217711461490884,
  9226217713607926084,
  9226217711461482694,
  9226217576202527044,
  9226209190313992384,
  9226200400661848384,
  9226209190280446144,
  9226200400628302144,
  9226209052841500864,
  9226200125817504064,
  9226209190313984194,
  9226200400661840194,
  9226209190280429764,
  9226200400594747714,
  9226209052841476294,
  9226199988378550594,
  9226209190246891714,
  9226200400628285764,
  9226209052807946434,
  9226200125817487684,
  9226209190246883524,
  9226200400594739524,
  9226209052807930054,
  9226199988378542404,
  9226208915368992964,
  9226200125716848964,
  9226208915368984774,
  9226199988311449924,
  9226200394220970304,
  9226200394220970304,
  9226200394187424064,
  9226200394187424064,
  9226200256748478784,
  9226200119376625984,
  9226200394220962114,
  9226200394220962114,
  9226200394187407684,
  9226200394153869634,
  9226200256748454214,
  9226199981937672514,
  9226200394153869634,
  9226200394187407684,
  9226200256714924354,
  9226200119376609604,
  9226200394153861444,
  9226200394153861444,
  9226200256714907974,
  9226199981937664324,
  9226200119275970884,
  9226200119275970884,
  9226200119275962694,
  9226199981870571844,
  164412590478073920,
  164412590478073920,
  164412453072674880,
  164412453072674880,
  164412315633729600,
  164412453005582400,
  164412590478065730,
  164412590478065730,
  164412453072666690,
  164412453072666690,
  164412590444511300,
  164412590410973250,
  164412453005557830,
  164412178194776130,
  164412315633713220,
  164412452972027970,
  164412315600158790,
  164412178161229890,
  164412178194776130,
  164412453005557830,
  164412178194767940,
  164412452972011590,
  164412178161213510,
  164412178161213510,
  164403796532535360,
  164403796532535360,
  164403659127136320,
  164403659127136320,
  164403521688191040,
  164403659060043840,
  164403796532527170,
  164403796532527170,
  164403659127128130,
  164403659127128130,
  164403796498972740,
  164403796465434690,
  164403659060019270,
  164403384249237570,
  164403521688174660,
  164403659026489410,
  164403521654620230,
  164403384215691330,
  164403384249237570,
  164403659060019270,
  164403384249229380,
  164403659026473030,
  164403384215674950,
  164403384215674950,
  164412588331114560,
  164412588331114560,
  164412450925715520,
  164412450925715520,
  164412313486770240,
  164412450858623040,
  164412588331106370,
  164412588331106370,
  164412450925707330,
  164412450925707330,
  164412588297551940,
  164412588264013890,
  164412450858598470,
  164412176047816770,
  164412313486753860,
  164412450825068610,
  164412313453199430,
  164412176014270530,
  164412176047816770,
  164412450858598470,
  164412176047808580,
  164412450825052230,
  164412176014254150,
  164412176014254150,
  164403792238616640,
  164395000440037440,
  164403654833217600,
  164394863034638400,
  164403517394272320,
  164394862967545920,
  164403792238608450,
  164395000440029250,
  164403654833209410,
  164394863034630210,
  164403792205054020,
  164395000372936770,
  164403654766100550,
  164394588156739650,
  164403517394255940,
  164394862933991490,
  164403517360701510,
  164394588123193410,
  164403379955318850,
  164394862967521350,
  164403379955310660,
  164394862933975110,
  164403379921756230,
  164394588123177030,
  164395000440037440,
  164403792238616640,
  164394863034638400,
  164403654833217600,
  164394725595693120,
  164403654766125120,
  164395000440029250,
  164403792238608450,
  164394863034630210,
  164403654833209410,
  164395000406474820,
  164403792171515970,
  164394862967521350,
  164403379955318850,
  164394725595676740,
  164403654732570690,
  164394725562122310,
  164403379921772610,
  164394588156739650,
  164403654766100550,
  164394588156731460,
  164403654732554310,
  164394588123177030,
  164403379921756230,
  164394998293078080,
  164394998293078080,
  164394860887679040,
  164394860887679040,
  164394723448733760,
  164394860820586560,
  164394998293069890,
  164394998293069890,
  164394860887670850,
  164394860887670850,
  164394998259515460,
  164394998225977410,
  164394860820561990,
  164394586009780290,
  164394723448717380,
  164394860787032130,
  164394723415162950,
  164394585976234050,
  164394586009780290,
  164394860820561990,
  164394586009772100,
  164394860787015750,
  164394585976217670,
  164394585976217670,
  164412586183631040,
  164412588330066240,
  164412448778232000,
  164412450924667200,
  164412311339286720,
  164412450857574720,
  164412586183622850,
  164412588330058050,
  164412448778223810,
  164412450924659010,
  164412586150068420,
  164412588262965570,
  164412448711114950,
  164412176046768450,
  164412311339270340,
  164412450824020290,
  164412311305715910,
  164412176013222210,
  164412173900333250,
  164412450857550150,
  164412173900325060,
  164412450824003910,
  164412173866770630,
  164412176013205830,
  164403790091133120,
  164395000438989120,
  164403652685734080,
  164394863033590080,
  164403515246788800,
  164394862966497600,
  164403790091124930,
  164395000438980930,
  164403652685725890,
  164394863033581890,
  164403790057570500,
  164395000371888450,
  164403652618617030,
  164394588155691330,
  164403515246772420,
  164394862932943170,
  164403515213217990,
  164394588122145090,
  164403377807835330,
  164394862966473030,
  164403377807827140,
  164394862932926790,
  164403377774272710,
  164394588122128710,
  164394993998111040,
  164394993998111040,
  164394856592712000,
  164394856592712000,
  164394719153766720,
  164394856525619520,
  164394993998102850,
  164394993998102850,
  164394856592703810,
  164394856592703810,
  164394993964548420,
  164394993931010370,
  164394856525594950,
  164394581714813250,
  164394719153750340,
  164394856492065090,
  164394719120195910,
  164394581681267010,
  164394581714813250,
  164394856525594950,
  164394581714805060,
  164394856492048710,
  164394581681250630,
  164394581681250630,
  164386204347015360,
  164403792237044160,
  164386066941616320,
  164403654831645120,
  164385929502671040,
  164403654764552640,
  164386204347007170,
  164403792237035970,
  164386066941608130,
  164403654831636930,
  164386204313452740,
  164403792169943490,
  164386066874499270,
  164403379953746370,
  164385929502654660,
  164403654730998210,
  164385929469100230,
  164403379920200130,
  164385792063717570,
  164403654764528070,
  164385792063709380,
  164403654730981830,
  164385792030154950,
  164403379920183750,
  164386202200056000,
  164394998291505600,
  164386064794656960,
  164394860886106560,
  164385927355711680,
  164394860819014080,
  164386202200047810,
  164394998291497410,
  164386064794648770,
  164394860886098370,
  164386202166493380,
  164394998224404930,
  164386064727539910,
  164394586008207810,
  164385927355695300,
  164394860785459650]
def ccsdtq_t4_aaaaaaaa_cert_1 : List Nat := [164385927322140870,
  164394585974661570,
  164385789916758210,
  164394860818989510,
  164385789916750020,
  164394860785443270,
  164385789883195590,
  164394585974645190,
  164386200052572480,
  164394993997586880,
  164386062647173440,
  164394856592187840,
  164385925208228160,
  164394856525095360,
  164386200052564290,
  164394993997578690,
  164386062647165250,
  164394856592179650,
  164386200019009860,
  164394993930486210,
  164386062580056390,
  164394581714289090,
  164385925208211780,
  164394856491540930,
  164385925174657350,
  164394581680742850,
  164385787769274690,
  164394856525070790,
  164385787769266500,
  164394856491524550,
  164385787735712070,
  164394581680726470,
  811818900033884659776,
  811818900033884659776,
  811818900033851113536,
  811818900033851113536,
  811818899896412168256,
  811818899759040315456,
  811818900033817559106,
  811818900033851097156,
  811818899896378613826,
  811818899759040299076,
  811818899758939660356,
  811818899758939660356,
  811818900031737700416,
  811818900031737700416,
  811818900031704154176,
  811818900031704154176,
  811818899894265208896,
  811818899756893356096,
  811818900031670599746,
  811818900031704137796,
  811818899894231654466,
  811818899756893339716,
  811818899756792700996,
  811818899756792700996,
  811818891235645202496,
  811818882443846623296,
  811818891235611656256,
  811818882443813077056,
  811818891098172710976,
  811818882169002278976,
  811818891235578101826,
  811818882443813060676,
  811818891098139156546,
  811818882169002262596,
  811818890960700203076,
  811818882168901623876,
  664280976241226686656,
  664280976241226686656,
  664280976241193140416,
  664280976241193140416,
  664280976103754195136,
  664280975966382342336,
  664280976241159585986,
  664280976241193124036,
  664280976103720640706,
  664280975966382325956,
  664280975966281687236,
  664280975966281687236,
  664280976239079203136,
  664280976236932767936,
  664280976239045656896,
  664280976236899221696,
  664280976101606711616,
  664280975962088423616,
  664280976239012102466,
  664280976236899205316,
  664280976101573157186,
  664280975962088407236,
  664280975964134203716,
  664280975961987768516,
  664280967442986181056,
  664280949855096152256,
  664280967442952634816,
  664280949855062606016,
  664280967305513689536,
  664280949580251807936,
  664280967442919080386,
  664280949855062589636,
  664280967305480135106,
  664280949580251791556,
  664280967168041181636,
  664280949580151152836,
  811818900029590216896,
  811818900031736652096,
  811818900029556670656,
  811818900031703105856,
  811818899892117725376,
  811818899756892307776,
  811818900029523116226,
  811818900031703089476,
  811818899892084170946,
  811818899756892291396,
  811818899754645217476,
  811818899756791652676,
  811818891233497718976,
  811818882443845574976,
  811818891233464172736,
  811818882443812028736,
  811818891096025227456,
  811818882169001230656,
  811818891233430618306,
  811818882443812012356,
  811818891095991673026,
  811818882169001214276,
  811818890958552719556,
  811818882168900575556,
  664280976236932243776,
  664280976236932243776,
  664280976236898697536,
  664280976236898697536,
  664280976099459752256,
  664280975962087899456,
  664280976236865143106,
  664280976236898681156,
  664280976099426197826,
  664280975962087883076,
  664280975961987244356,
  664280975961987244356,
  664280967440839221696,
  664280949855095628096,
  664280967440805675456,
  664280949855062081856,
  664280967303366730176,
  664280949580251283776,
  664280967440772121026,
  664280949855062065476,
  664280967303333175746,
  664280949580251267396,
  664280967165894222276,
  664280949580150628676,
  811818882437404696896,
  811818882437404696896,
  811818882437371150656,
  811818882437371150656,
  811818882299932205376,
  811818882162560352576,
  811818882437337596226,
  811818882437371134276,
  811818882299898650946,
  811818882162560336196,
  811818882162459697476,
  811818882162459697476,
  664280958644746723776,
  664280949850801709376,
  664280958644713177536,
  664280949850768163136,
  664280958507274232256,
  664280949575957365056,
  664280958644679623106,
  664280949850768146756,
  664280958507240677826,
  664280949575957348676,
  664280958369801724356,
  664280949575856709956,
  162160790664388672,
  162160790664388672,
  162160790664380482,
  162160790664380482,
  162160790630826052,
  162160790597288002,
  162160653191872582,
  162160378381090882,
  162160788517429312,
  162160788517429312,
  162160788517421122,
  162160788517421122,
  162160788483866692,
  162160788450328642,
  162160651044913222,
  162160376234131522,
  162151992424931392,
  162143200626352192,
  162151992424923202,
  162143200626344002,
  162151992391368772,
  162143200559251522,
  162151854952415302,
  162142788343054402,
  162160786369945792,
  162160788516380992,
  162160786369937602,
  162160788516372802,
  162160786336383172,
  162160788449280322,
  162160648897429702,
  162160376233083202,
  162151990277447872,
  162143200625303872,
  162151990277439682,
  162143200625295682,
  162151990243885252,
  162143200558203202,
  162151852804931782,
  162142788342006082,
  162143194184425792,
  162143194184425792,
  162143194184417602,
  162143194184417602,
  162143194150863172,
  162143194117325122,
  162143056711909702,
  162142781901128002,
  2283003892736064,
  2283003892736064,
  2283003859189824,
  2283003859189824,
  2282866420244544,
  2282729048391744,
  2283003825635394,
  2283003859173444,
  2282866386690114,
  2282729048375364,
  2282728947736644,
  2282728947736644,
  2283003892211904,
  2283003892211904,
  2283003858665664,
  2283003858665664,
  2282866419720384,
  2282729047867584,
  2283003825111234,
  2283003858649284,
  2282866386165954,
  2282729047851204,
  2282728947212484,
  2282728947212484,
  2283001744728384,
  2282999598293184,
  2283001711182144,
  2282999564746944,
  2282864272236864,
  2282724753948864,
  2283001677627714,
  2282999564730564,
  2282864238682434,
  2282724753932484,
  2282726799728964,
  2282724653293764,
  2274205651706304,
  2256617761677504,
  2274205618160064,
  2256617728131264,
  2274068179214784,
  2256342917333184,
  2274205584605634,
  2256617728114884,
  2274068145660354,
  2256342917316804,
  2273930706706884,
  2256342816678084,
  11531498049961205824,
  11531498049961205824,
  11531498049961197634,
  11531498049961197634,
  11531498047814246464,
  11531498047814246464,
  11531498047814238274,
  11531498047814238274,
  11531498049961205824,
  11531498049961205824,
  11531498049961197634,
  11531498049961197634,
  11531498049961205824,
  11531498049961205824,
  11531498049894096964,
  11531498049894096964,
  11531498047814246464,
  11531498047814246464,
  11531498047747137604,
  11531498047747137604,
  11531498049961205824,
  11531498049961205824,
  11531498049894096964,
  11531498049894096964,
  11531498049961205824,
  11531498049961205824,
  11531498049927659584,
  11531498049927659584,
  11531498047814246464,
  11531498047814246464,
  11531498047780700224,
  11531498047780700224,
  11531498049961205824,
  11531498049961205824,
  11531498049927659584,
  11531498049927659584,
  11531498049961205824,
  11531498049961205824,
  11531497637644345414,
  11531497637644345414,
  11531498047814246464,
  11531498047814246464,
  11531497635497386054,
  11531497635497386054,
  11531498049961205824,
  11531498049961205824,
  11531497637644345414,
  11531497637644345414,
  11531498049961205824,
  11531498049961205824,
  11531497775083315264,
  11531497775083315264,
  11531498047814246464,
  11531498047814246464,
  11531497772936355904,
  11531497772936355904,
  11531498049961205824,
  11531498049961205824,
  11531497775083315264,
  11531497775083315264,
  11531498049961205824,
  11531498049961205824,
  11531497912555806784,
  11531497912555806784,
  11531498047814246464,
  11531498047814246464,
  11531497910408847424,
  11531497910408847424,
  11531498049961205824,
  11531498049961205824,
  11531497912555806784,
  11531497912555806784,
  164412590478073920,
  164412590478073920,
  164412590478065730,
  164412590478065730,
  164412588331114560,
  164412588331114560,
  164412588331106370,
  164412588331106370,
  164412590478073920,
  164412590478073920,
  164412453072674880,
  164412453072674880,
  164412588331114560,
  164412588331114560,
  164412450925715520,
  164412450925715520,
  164412590478073920,
  164412590478073920,
  164412590478065730,
  164412590478065730,
  164412590477549760,
  164412590477549760,
  164412590477541570,
  164412590477541570,
  164412590478073920,
  164412590478073920,
  164412453072674880,
  164412453072674880,
  164412590477549760,
  164412590477549760,
  164412453072150720,
  164412453072150720,
  164412590478073920,
  164412590478073920,
  164412590478065730,
  164412590478065730,
  164412588331114560,
  164412588331114560,
  164412588331106370,
  164412588331106370,
  164412590478073920,
  164412590478073920,
  164412590478065730,
  164412590478065730,
  164412590477549760,
  164412590477549760,
  164412590477541570,
  164412590477541570,
  164412590478073920,
  164412590478073920,
  164412590410965060,
  164412590410965060,
  164412588331114560,
  164412588331114560,
  164412588264005700,
  164412588264005700]
def ccsdtq_t4_aaaaaaaa_cert_2 : List Nat := [164412590478073920,
  164412590478073920,
  164412590478065730,
  164412590478065730,
  164412588331114560,
  164412588331114560,
  164412588331106370,
  164412588331106370,
  164412590478073920,
  164412590478073920,
  164412590410965060,
  164412590410965060,
  164412590477549760,
  164412590477549760,
  164412590410440900,
  164412590410440900,
  164412590478073920,
  164412590478073920,
  164412590478065730,
  164412590478065730,
  164412590477549760,
  164412590477549760,
  164412590477541570,
  164412590477541570,
  164412590478073920,
  164412590478073920,
  164412590444527680,
  164412590444527680,
  164412588331114560,
  164412588331114560,
  164412588297568320,
  164412588297568320,
  164412590478073920,
  164412590478073920,
  164412590444527680,
  164412590444527680,
  164412590477549760,
  164412590477549760,
  164412590444003520,
  164412590444003520,
  164412590478073920,
  164412590478073920,
  164412590478065730,
  164412590478065730,
  164412586183106880,
  164412586183106880,
  164412586183098690,
  164412586183098690,
  164412590478073920,
  164412590478073920,
  164412453072674880,
  164412453072674880,
  164412586183106880,
  164412586183106880,
  164412448777707840,
  164412448777707840,
  164412590478073920,
  164412590478073920,
  164412590478065730,
  164412590478065730,
  164412586183106880,
  164412586183106880,
  164412586183098690,
  164412586183098690,
  164412590478073920,
  164412590478073920,
  164412590410965060,
  164412590410965060,
  164412586183106880,
  164412586183106880,
  164412586115998020,
  164412586115998020,
  164412590478073920,
  164412590478073920,
  164412590478065730,
  164412590478065730,
  164412586183106880,
  164412586183106880,
  164412586183098690,
  164412586183098690,
  164412590478073920,
  164412590478073920,
  164412590444527680,
  164412590444527680,
  164412586183106880,
  164412586183106880,
  164412586149560640,
  164412586149560640,
  164412590478073920,
  164412590478073920,
  164412590478065730,
  164412590478065730,
  164412590477549760,
  164412590477549760,
  164412590477541570,
  164412590477541570,
  164412590478073920,
  164412590478073920,
  164412453072674880,
  164412453072674880,
  164412590477549760,
  164412590477549760,
  164412453072150720,
  164412453072150720,
  164412590478073920,
  164412590478073920,
  164412590478065730,
  164412590478065730,
  164403796532535360,
  164403796532535360,
  164403796532527170,
  164403796532527170,
  164412590478073920,
  164412590478073920,
  164412453072674880,
  164412453072674880,
  164403796532535360,
  164403796532535360,
  164403659127136320,
  164403659127136320,
  164412590478073920,
  164412590478073920,
  164412590478065730,
  164412590478065730,
  164412590477549760,
  164412590477549760,
  164412590477541570,
  164412590477541570,
  164412590478073920,
  164412590478073920,
  164412590478065730,
  164412590478065730,
  164403796532535360,
  164403796532535360,
  164403796532527170,
  164403796532527170,
  164412590478073920,
  164412590478073920,
  164412590410965060,
  164412590410965060,
  164412590477549760,
  164412590477549760,
  164412590410440900,
  164412590410440900,
  164412590478073920,
  164412590478073920,
  164412590478065730,
  164412590478065730,
  164412590477549760,
  164412590477549760,
  164412590477541570,
  164412590477541570,
  164412590478073920,
  164412590478073920,
  164412590410965060,
  164412590410965060,
  164403796532535360,
  164403796532535360,
  164403796465426500,
  164403796465426500,
  164412590478073920,
  164412590478073920,
  164412590478065730,
  164412590478065730,
  164403796532535360,
  164403796532535360,
  164403796532527170,
  164403796532527170,
  164412590478073920,
  164412590478073920,
  164412590444527680,
  164412590444527680,
  164412590477549760,
  164412590477549760,
  164412590444003520,
  164412590444003520,
  164412590478073920,
  164412590478073920,
  164412590444527680,
  164412590444527680,
  164403796532535360,
  164403796532535360,
  164403796498989120,
  164403796498989120,
  164412590478073920,
  164412590478073920,
  164412590478065730,
  164412590478065730,
  164412590477549760,
  164412590477549760,
  164412590477541570,
  164412590477541570,
  164412590478073920,
  164412590478073920,
  164412453072674880,
  164412453072674880,
  164412590477549760,
  164412590477549760,
  164412453072150720,
  164412453072150720,
  164412590478073920,
  164412590478073920,
  164412590478065730,
  164412590478065730,
  164412590477549760,
  164412590477549760,
  164412590477541570,
  164412590477541570,
  164412590478073920,
  164412590478073920,
  164412590410965060,
  164412590410965060,
  164412590477549760,
  164412590477549760,
  164412590410440900,
  164412590410440900,
  164412590478073920,
  164412590478073920,
  164412590478065730,
  164412590478065730,
  164412590477549760,
  164412590477549760,
  164412590477541570,
  164412590477541570,
  164412590478073920,
  164412590478073920,
  164412590444527680,
  164412590444527680,
  164412590477549760,
  164412590477549760,
  164412590444003520,
  164412590444003520,
  811818900033884659776,
  811818900033884659776,
  811818900033851113536,
  811818900033851113536,
  811818900031737700416,
  811818900031737700416,
  811818900031704154176,
  811818900031704154176,
  811818900033884659776,
  811818900033884659776,
  811818899896479260736,
  811818899896479260736,
  811818900031737700416,
  811818900031737700416,
  811818899894332301376,
  811818899894332301376,
  811818900033884659776,
  811818900033884659776,
  811818900033817550916,
  811818900033817550916,
  811818900031737700416,
  811818900031737700416,
  811818900031670591556,
  811818900031670591556,
  811818900033884659776,
  811818900033884659776,
  811818900033851113536,
  811818900033851113536,
  811818900033884135616,
  811818900033884135616,
  811818900033850589376,
  811818900033850589376,
  811818900033884659776,
  811818900033884659776,
  811818899896479260736,
  811818899896479260736,
  811818900033884135616,
  811818900033884135616,
  811818899896478736576,
  811818899896478736576,
  811818900033884659776,
  811818900033884659776,
  811818900033817550916,
  811818900033817550916,
  811818900033884135616,
  811818900033884135616,
  811818900033817026756,
  811818900033817026756,
  811818900033884659776,
  811818900033884659776,
  811818900033851113536,
  811818900033851113536,
  811818882441699663936,
  811818882441699663936,
  811818882441666117696,
  811818882441666117696,
  811818900033884659776,
  811818900033884659776,
  811818899896479260736,
  811818899896479260736,
  811818882441699663936,
  811818882441699663936,
  811818882304294264896,
  811818882304294264896,
  811818900033884659776,
  811818900033884659776,
  811818900033817550916,
  811818900033817550916,
  811818882441699663936,
  811818882441699663936,
  811818882441632555076,
  811818882441632555076,
  2283003892736064,
  2283003892736064,
  2283003859189824,
  2283003859189824,
  2283003892211904,
  2283003892211904,
  2283003858665664,
  2283003858665664,
  2283003892736064,
  2283003892736064,
  2282866487337024,
  2282866487337024,
  2283003892211904,
  2283003892211904,
  2282866486812864,
  2282866486812864,
  2283003892736064,
  2283003892736064,
  2283003825627204,
  2283003825627204,
  2283003892211904,
  2283003892211904,
  2283003825103044,
  2283003825103044,
  2283003892736064,
  2283003892736064,
  2283003859189824,
  2283003859189824,
  2274209947197504,
  2274209947197504,
  2274209913651264,
  2274209913651264,
  2283003892736064,
  2283003892736064,
  2282866487337024,
  2282866487337024,
  2274209947197504,
  2274209947197504,
  2274072541798464,
  2274072541798464,
  2283003892736064,
  2283003892736064,
  2283003825627204,
  2283003825627204,
  2274209947197504,
  2274209947197504,
  2274209880088644,
  2274209880088644,
  162160790664388672,
  162160790664388672,
  162160653258989632,
  162160653258989632,
  162160788517429312,
  162160788517429312,
  162160651112030272,
  162160651112030272,
  162160790664388672,
  162160790664388672,
  162160790664380482,
  162160790664380482,
  162160788517429312,
  162160788517429312,
  162160788517421122,
  162160788517421122,
  162160790664388672,
  162160790664388672,
  162160653258989632,
  162160653258989632,
  162160790663864512,
  162160790663864512,
  162160653258465472,
  162160653258465472,
  162160790664388672,
  162160790664388672,
  162160790664380482,
  162160790664380482,
  162160790663864512,
  162160790663864512,
  162160790663856322,
  162160790663856322,
  162160790664388672,
  162160790664388672,
  162160653258989632,
  162160653258989632,
  162143198479392832,
  162143198479392832,
  162143061073993792,
  162143061073993792,
  162160790664388672,
  162160790664388672,
  162160790664380482,
  162160790664380482,
  162143198479392832,
  162143198479392832,
  162143198479384642,
  162143198479384642]

/-- Check ccsdtq_t4_aaaaaaaa. C83 -/
theorem ccsdtq_t4_aaaaaaaa : isZeroSpin kinds [aᵥ, bᵥ, cᵥ, dᵥ, iₒ, jₒ, kₒ, lₒ] 2 [false, false, false, false, false, false, false, false]
    (Prog.outs [4, 5, 6, 7, 0, 1, 2, 3] (Prog.thin split_quad_t4 (Prog.part [[23, 39, 39]] (wnT2cubed_toT4_0)) ++ (Prog.thin split_lin_t4 (linT3))))
    (Prog.scale (-1) (ccsdtq_t4_aaaaaaaa))
    (ccsdtq_t4_aaaaaaaa_cert_0 ++ (ccsdtq_t4_aaaaaaaa_cert_1 ++ (ccsdtq_t4_aaaaaaaa_cert_2))) = true := by decide +kernel

def ccsdtq_t4_aaabaaab_cert_0 : List Nat := [11531498049961205824,
  11531498049961205824,
  11531498049927659584,
  11531498049927659584,
  11531497912488714304,
  11531497775116861504,
  11531498049961197634,
  11531498049961197634,
  11531498049927643204,
  11531498049894105154,
  11531498049894105154,
  11531498049927643204,
  11531497912455159874,
  11531497775116845124,
  11531498049894096964,
  11531498049894096964,
  11531497775016206404,
  11531497775016206404,
  11531498047814246464,
  11531498047814246464,
  11531498047780700224,
  11531498047780700224,
  11531497910341754944,
  11531497772969902144,
  11531498047814238274,
  11531498047814238274,
  11531498047780683844,
  11531498047747145794,
  11531498047747145794,
  11531498047780683844,
  11531497910308200514,
  11531497772969885764,
  11531498047747137604,
  11531498047747137604,
  11531497772869247044,
  11531497772869247044,
  9226209192461475904,
  9226200400662896704,
  9226209192427929664,
  9226200400629350464,
  9226209192461467714,
  9226200400662888514,
  9226209192427913284,
  9226200400595796034,
  9226209054988959814,
  9226199988379598914,
  9226209192394375234,
  9226200400629334084,
  9226209192394367044,
  9226200400595787844,
  9226209054955413574,
  9226199988379590724,
  9226208917516468294,
  9226199988312498244,
  11531498045666762944,
  11531498047813198144,
  11531498045633216704,
  11531498047779651904,
  11531497908194271424,
  11531497772968853824,
  11531498045666754754,
  11531498047813189954,
  11531498045633200324,
  11531498047746097474,
  11531498045599662274,
  11531498047779635524,
  11531497908160716994,
  11531497772968837444,
  11531498045599654084,
  11531498047746089284,
  11531497770721763524,
  11531497772868198724,
  9226209190313992384,
  9226200400661848384,
  9226209190280446144,
  9226200400628302144,
  9226209190313984194,
  9226200400661840194,
  9226209190280429764,
  9226200400594747714,
  9226209052841476294,
  9226199988378550594,
  9226209190246891714,
  9226200400628285764,
  9226209190246883524,
  9226200400594739524,
  9226209052807930054,
  9226199988378542404,
  9226208915368984774,
  9226199988311449924,
  9226200394220970304,
  9226200394220970304,
  9226200394187424064,
  9226200394187424064,
  9226200394220962114,
  9226200394220962114,
  9226200394187407684,
  9226200394153869634,
  9226200256748454214,
  9226199981937672514,
  9226200394153869634,
  9226200394187407684,
  9226200394153861444,
  9226200394153861444,
  9226200256714907974,
  9226199981937664324,
  9226200119275962694,
  9226199981870571844,
  164412590478073920,
  164412590478073920,
  164412453072674880,
  164412453072674880,
  164412315633729600,
  164412453005582400,
  164412590478065730,
  164412590478065730,
  164412453072666690,
  164412453072666690,
  164412590444511300,
  164412590410973250,
  164412315633713220,
  164412452972027970,
  164412178194776130,
  164412453005557830,
  164412178194767940,
  164412452972011590,
  164403659127136320,
  164403659127136320,
  164403521688191040,
  164403659060043840,
  164403659127128130,
  164403659127128130,
  164403521688174660,
  164403659026489410,
  164403384249237570,
  164403659060019270,
  164403384249229380,
  164403659026473030,
  164412588331114560,
  164412588331114560,
  164412450925715520,
  164412450925715520,
  164412313486770240,
  164412450858623040,
  164412588331106370,
  164412588331106370,
  164412450925707330,
  164412450925707330,
  164412588297551940,
  164412588264013890,
  164412313486753860,
  164412450825068610,
  164412176047816770,
  164412450858598470,
  164412176047808580,
  164412450825052230,
  164403792238616640,
  164395000440037440,
  164403654833217600,
  164394863034638400,
  164403517394272320,
  164394862967545920,
  164403792238608450,
  164395000440029250,
  164403654833209410,
  164394863034630210,
  164403792205054020,
  164395000372936770,
  164403654766100550,
  164394588156739650,
  164403517394255940,
  164394862933991490,
  164403517360701510,
  164394588123193410,
  164403379955318850,
  164394862967521350,
  164403379955310660,
  164394862933975110,
  164403379921756230,
  164394588123177030,
  164394863034638400,
  164403654833217600,
  164394725595693120,
  164403654766125120,
  164394863034630210,
  164403654833209410,
  164394725595676740,
  164403654732570690,
  164394588156739650,
  164403654766100550,
  164394588156731460,
  164403654732554310,
  164394998293078080,
  164394998293078080,
  164394860887679040,
  164394860887679040,
  164394723448733760,
  164394860820586560,
  164394998293069890,
  164394998293069890,
  164394860887670850,
  164394860887670850,
  164394998259515460,
  164394998225977410,
  164394860820561990,
  164394586009780290,
  164394723448717380,
  164394860787032130,
  164394723415162950,
  164394585976234050,
  164394586009780290,
  164394860820561990,
  164394586009772100,
  164394860787015750,
  164394585976217670,
  164394585976217670,
  164412586183631040,
  164412588330066240,
  164412448778232000,
  164412450924667200,
  164412311339286720,
  164412450857574720,
  164412586183622850,
  164412588330058050,
  164412448778223810,
  164412450924659010,
  164412586150068420,
  164412588262965570,
  164412311339270340,
  164412450824020290,
  164412173900333250,
  164412450857550150,
  164412173900325060,
  164412450824003910,
  164403790091133120,
  164395000438989120,
  164403652685734080,
  164394863033590080,
  164403515246788800,
  164394862966497600,
  164403790091124930,
  164395000438980930,
  164403652685725890,
  164394863033581890,
  164403790057570500,
  164395000371888450,
  164403652618617030,
  164394588155691330,
  164403515246772420,
  164394862932943170,
  164403515213217990,
  164394588122145090,
  164403377807835330,
  164394862966473030,
  164403377807827140,
  164394862932926790,
  164403377774272710,
  164394588122128710,
  164394993998111040,
  164394993998111040,
  164394856592712000,
  164394856592712000,
  164394719153766720,
  164394856525619520,
  164394993998102850,
  164394993998102850,
  164394856592703810,
  164394856592703810,
  164394993964548420,
  164394993931010370,
  164394856525594950,
  164394581714813250,
  164394719153750340,
  164394856492065090,
  164394719120195910,
  164394581681267010,
  164394581714813250,
  164394856525594950,
  164394581714805060,
  164394856492048710,
  164394581681250630,
  164394581681250630,
  164386066941616320,
  164403654831645120,
  164385929502671040,
  164403654764552640,
  164386066941608130,
  164403654831636930,
  164385929502654660,
  164403654730998210,
  164385792063717570,
  164403654764528070,
  164385792063709380,
  164403654730981830,
  164386202200056000,
  164394998291505600,
  164386064794656960,
  164394860886106560,
  164385927355711680,
  164394860819014080,
  164386202200047810,
  164394998291497410,
  164386064794648770,
  164394860886098370,
  164386202166493380,
  164394998224404930,
  164386064727539910,
  164394586008207810,
  164385927355695300,
  164394860785459650,
  164385927322140870,
  164394585974661570,
  164385789916758210,
  164394860818989510,
  164385789916750020,
  164394860785443270,
  164385789883195590,
  164394585974645190,
  164386200052572480,
  164394993997586880,
  164386062647173440,
  164394856592187840,
  164385925208228160,
  164394856525095360,
  164386200052564290,
  164394993997578690,
  164386062647165250,
  164394856592179650,
  164386200019009860,
  164394993930486210,
  164386062580056390,
  164394581714289090,
  164385925208211780,
  164394856491540930,
  164385925174657350,
  164394581680742850,
  164385787769274690,
  164394856525070790,
  164385787769266500,
  164394856491524550,
  164385787735712070,
  164394581680726470,
  811818900033884659776,
  811818900033884659776,
  811818900033851113536,
  811818900033851113536,
  664280976103754719296,
  664280975966382866496,
  811818900033817559106,
  811818900033851097156,
  664280976103721164866,
  664280975966382850116,
  664280975966282211396,
  664280975966282211396,
  811818900031737700416,
  811818900031737700416,
  811818900031704154176,
  811818900031704154176,
  664280976101607759936,
  664280975964235907136,
  811818900031670599746,
  811818900031704137796,
  664280976101574205506,
  664280975964235890756,
  664280975964135252036,
  664280975964135252036,
  811818891235645202496,
  811818882443846623296,
  811818891235611656256,
  811818882443813077056,
  811818891235578101826,
  811818882443813060676,
  811818900033884135616,
  811818900033884135616,
  811818900033850589376,
  811818900033850589376,
  664280976103754195136,
  664280975966382342336,
  811818900033817034946,
  811818900033850572996,
  664280976103720640706,
  664280975966382325956,
  664280975966281687236,
  664280975966281687236,
  811818900031736652096,
  811818900029590216896,
  811818900031703105856,
  811818900029556670656,
  664280976101606711616,
  664280975962088423616,
  811818900031669551426,
  811818900029556654276,
  664280976101573157186,
  664280975962088407236,
  664280975964134203716,
  664280975961987768516,
  664280967305513689536,
  664280949580251807936,
  664280967305480135106,
  664280949580251791556]
def ccsdtq_t4_aaabaaab_cert_1 : List Nat := [664280967168041181636,
  664280949580151152836,
  811818900029590216896,
  811818900031736652096,
  811818900029556670656,
  811818900031703105856,
  664280976099460276416,
  664280975964234858816,
  811818900029523116226,
  811818900031703089476,
  664280976099426721986,
  664280975964234842436,
  664280975961987768516,
  664280975964134203716,
  811818891233497718976,
  811818882443845574976,
  811818891233464172736,
  811818882443812028736,
  811818891233430618306,
  811818882443812012356,
  811818900029589692736,
  811818900029589692736,
  811818900029556146496,
  811818900029556146496,
  664280976099459752256,
  664280975962087899456,
  811818900029522592066,
  811818900029556130116,
  664280976099426197826,
  664280975962087883076,
  664280975961987244356,
  664280975961987244356,
  664280967303366730176,
  664280949580251283776,
  664280967303333175746,
  664280949580251267396,
  664280967165894222276,
  664280949580150628676,
  811818882437404696896,
  811818882437404696896,
  811818882437371150656,
  811818882437371150656,
  811818882437337596226,
  811818882437371134276,
  664280958507274232256,
  664280949575957365056,
  664280958507240677826,
  664280949575957348676,
  664280958369801724356,
  664280949575856709956,
  162160790664388672,
  162160790664388672,
  162160790664380482,
  162160790664380482,
  162160790630826052,
  162160790597288002,
  162160788517429312,
  162160788517429312,
  162160788517421122,
  162160788517421122,
  162160788483866692,
  162160788450328642,
  162151992424931392,
  162143200626352192,
  162151992424923202,
  162143200626344002,
  162151992391368772,
  162143200559251522,
  162151854952415302,
  162142788343054402,
  162160786369945792,
  162160788516380992,
  162160786369937602,
  162160788516372802,
  162160786336383172,
  162160788449280322,
  162151990277447872,
  162143200625303872,
  162151990277439682,
  162143200625295682,
  162151990243885252,
  162143200558203202,
  162151852804931782,
  162142788342006082,
  162143194184425792,
  162143194184425792,
  162143194184417602,
  162143194184417602,
  162143194150863172,
  162143194117325122,
  162143056711909702,
  162142781901128002,
  2283003892736064,
  2283003892736064,
  2283003859189824,
  2283003859189824,
  2282866420244544,
  2282729048391744,
  2283003825635394,
  2283003859173444,
  2282866386690114,
  2282729048375364,
  2282728947736644,
  2282728947736644,
  2283003892211904,
  2283003892211904,
  2283003858665664,
  2283003858665664,
  2282866419720384,
  2282729047867584,
  2283003825111234,
  2283003858649284,
  2282866386165954,
  2282729047851204,
  2282728947212484,
  2282728947212484,
  2283001744728384,
  2282999598293184,
  2283001711182144,
  2282999564746944,
  2282864272236864,
  2282724753948864,
  2283001677627714,
  2282999564730564,
  2282864238682434,
  2282724753932484,
  2282726799728964,
  2282724653293764,
  2274068179214784,
  2256342917333184,
  2274068145660354,
  2256342917316804,
  2273930706706884,
  2256342816678084,
  11531498049961205824,
  11531498049961205824,
  11531498049961197634,
  11531498049961197634,
  11531498047814246464,
  11531498047814246464,
  11531498047814238274,
  11531498047814238274,
  9226217990700933184,
  9226217990700933184,
  9226217990700924994,
  9226217990700924994,
  11531498049961205824,
  11531498049961205824,
  11531498049894096964,
  11531498049894096964,
  11531498047814246464,
  11531498047814246464,
  11531498047747137604,
  11531498047747137604,
  9226217990700933184,
  9226217990700933184,
  9226217990633824324,
  9226217990633824324,
  11531498049961205824,
  11531498049961205824,
  11531498049927659584,
  11531498049927659584,
  11531498047814246464,
  11531498047814246464,
  11531498047780700224,
  11531498047780700224,
  9226217990700933184,
  9226217990700933184,
  9226217990667386944,
  9226217990667386944,
  11531498049961205824,
  11531498049961205824,
  11531498047814246464,
  11531498047814246464,
  9226217990700933184,
  9226217990700933184,
  11531498049961205824,
  11531498049961205824,
  11531498047814246464,
  11531498047814246464,
  9226217990700933184,
  9226217990700933184,
  11531498049961205824,
  11531498049961205824,
  11531498047814246464,
  11531498047814246464,
  9226217990700933184,
  9226217990700933184,
  164412590478073920,
  164412590478073920,
  164412590478065730,
  164412590478065730,
  164412588331114560,
  164412588331114560,
  164412588331106370,
  164412588331106370,
  164412590478073920,
  164412590478073920,
  164412588331114560,
  164412588331114560,
  164412590478073920,
  164412590478073920,
  164412588331114560,
  164412588331114560,
  164412590478073920,
  164412590478073920,
  164412590478065730,
  164412590478065730,
  164412588331114560,
  164412588331114560,
  164412588331106370,
  164412588331106370,
  164412590478073920,
  164412590478073920,
  164412590478065730,
  164412590478065730,
  164412590477549760,
  164412590477549760,
  164412590477541570,
  164412590477541570,
  164412590478073920,
  164412590478073920,
  164412590410965060,
  164412590410965060,
  164412588331114560,
  164412588331114560,
  164412588264005700,
  164412588264005700,
  164412590478073920,
  164412590478073920,
  164412590478065730,
  164412590478065730,
  164412588331114560,
  164412588331114560,
  164412588331106370,
  164412588331106370,
  164412590478073920,
  164412590478073920,
  164412590410965060,
  164412590410965060,
  164412590477549760,
  164412590477549760,
  164412590410440900,
  164412590410440900,
  164412590478073920,
  164412590478073920,
  164412590444527680,
  164412590444527680,
  164412588331114560,
  164412588331114560,
  164412588297568320,
  164412588297568320,
  164412590478073920,
  164412590478073920,
  164412590444527680,
  164412590444527680,
  164412590477549760,
  164412590477549760,
  164412590444003520,
  164412590444003520,
  164412590478073920,
  164412590478073920,
  164412590478065730,
  164412590478065730,
  164412586183106880,
  164412586183106880,
  164412586183098690,
  164412586183098690,
  164412590478073920,
  164412590478073920,
  164412586183106880,
  164412586183106880,
  164412590478073920,
  164412590478073920,
  164412586183106880,
  164412586183106880,
  164412590478073920,
  164412590478073920,
  164412590478065730,
  164412590478065730,
  164412586183106880,
  164412586183106880,
  164412586183098690,
  164412586183098690,
  164412590478073920,
  164412590478073920,
  164412590410965060,
  164412590410965060,
  164412586183106880,
  164412586183106880,
  164412586115998020,
  164412586115998020,
  164412590478073920,
  164412590478073920,
  164412590478065730,
  164412590478065730,
  164412586183106880,
  164412586183106880,
  164412586183098690,
  164412586183098690,
  164412590478073920,
  164412590478073920,
  164412590444527680,
  164412590444527680,
  164412586183106880,
  164412586183106880,
  164412586149560640,
  164412586149560640,
  164412590478073920,
  164412590478073920,
  164412590478065730,
  164412590478065730,
  164412590477549760,
  164412590477549760,
  164412590477541570,
  164412590477541570,
  164412590478073920,
  164412590478073920,
  164412590477549760,
  164412590477549760,
  164412590478073920,
  164412590478073920,
  164412590477549760,
  164412590477549760,
  164412590478073920,
  164412590478073920,
  164412590478065730,
  164412590478065730,
  164412590478073920,
  164412590478073920,
  164412590478073920,
  164412590478073920,
  164412590478065730,
  164412590478065730,
  164412590477549760,
  164412590477549760,
  164412590477541570,
  164412590477541570,
  164412590478073920,
  164412590478073920,
  164412590478065730,
  164412590478065730,
  164412590478073920,
  164412590478073920,
  164412590478065730,
  164412590478065730,
  164412590478073920,
  164412590478073920,
  164412590410965060,
  164412590410965060,
  164412590477549760,
  164412590477549760,
  164412590410440900,
  164412590410440900,
  164412590478073920,
  164412590478073920,
  164412590478065730,
  164412590478065730,
  164412590477549760,
  164412590477549760,
  164412590477541570,
  164412590477541570,
  164412590478073920,
  164412590478073920,
  164412590410965060,
  164412590410965060,
  164412590478073920,
  164412590478073920,
  164412590410965060,
  164412590410965060,
  164412590478073920,
  164412590478073920,
  164412590444527680,
  164412590444527680,
  164412590477549760,
  164412590477549760,
  164412590444003520,
  164412590444003520,
  164412590478073920,
  164412590478073920,
  164412590444527680,
  164412590444527680,
  164412590478073920,
  164412590478073920,
  164412590444527680,
  164412590444527680,
  164412590478073920,
  164412590478073920,
  164412590478065730,
  164412590478065730,
  164412590477549760,
  164412590477549760,
  164412590477541570,
  164412590477541570,
  164412590478073920,
  164412590478073920,
  164412590477549760,
  164412590477549760,
  164412590478073920,
  164412590478073920]
def ccsdtq_t4_aaabaaab_cert_2 : List Nat := [164412590478065730,
  164412590478065730,
  164412590477549760,
  164412590477549760,
  164412590477541570,
  164412590477541570,
  164412590478073920,
  164412590478073920,
  164412590410965060,
  164412590410965060,
  164412590477549760,
  164412590477549760,
  164412590410440900,
  164412590410440900,
  164412590478073920,
  164412590478073920,
  164412590444527680,
  164412590444527680,
  164412590477549760,
  164412590477549760,
  164412590444003520,
  164412590444003520,
  811818900033884659776,
  811818900033884659776,
  811818900031737700416,
  811818900031737700416,
  811818900033884659776,
  811818900033884659776,
  811818900033817550916,
  811818900033817550916,
  811818900031737700416,
  811818900031737700416,
  811818900031670591556,
  811818900031670591556,
  664280976241227210816,
  664280976241227210816,
  664280976241193664576,
  664280976241193664576,
  664280976241226686656,
  664280976241226686656,
  664280976241193140416,
  664280976241193140416,
  664280976241227210816,
  664280976241227210816,
  664280976241226686656,
  664280976241226686656,
  811818900033884659776,
  811818900033884659776,
  811818900033884135616,
  811818900033884135616,
  811818900033884659776,
  811818900033884659776,
  811818900033817550916,
  811818900033817550916,
  811818900033884135616,
  811818900033884135616,
  811818900033817026756,
  811818900033817026756,
  664280976241227210816,
  664280976241227210816,
  664280976241193664576,
  664280976241193664576,
  664280976241227210816,
  664280976241227210816,
  811818900033884659776,
  811818900033884659776,
  811818900033884659776,
  811818900033884659776,
  811818900033884659776,
  811818900033884659776,
  811818900033817550916,
  811818900033817550916,
  811818900033884659776,
  811818900033884659776,
  811818900033817550916,
  811818900033817550916,
  2283003892736064,
  2283003892736064,
  2283003859189824,
  2283003859189824,
  2283003892211904,
  2283003892211904,
  2283003858665664,
  2283003858665664,
  2283003892736064,
  2283003892736064,
  2283003892211904,
  2283003892211904,
  2283003892736064,
  2283003892736064,
  2283003892211904,
  2283003892211904,
  2283003892736064,
  2283003892736064,
  2283003825627204,
  2283003825627204,
  2283003892211904,
  2283003892211904,
  2283003825103044,
  2283003825103044,
  2283003892736064,
  2283003892736064,
  2283003859189824,
  2283003859189824,
  2283003892736064,
  2283003892736064,
  2283003859189824,
  2283003859189824,
  2283003892736064,
  2283003892736064,
  2283003892736064,
  2283003892736064,
  2283003892736064,
  2283003892736064,
  2283003892736064,
  2283003892736064,
  2283003825627204,
  2283003825627204,
  162160790664388672,
  162160790664388672,
  162160788517429312,
  162160788517429312,
  162160790664388672,
  162160790664388672,
  162160790664380482,
  162160790664380482,
  162160788517429312,
  162160788517429312,
  162160788517421122,
  162160788517421122,
  162160790664388672,
  162160790664388672,
  162160790663864512,
  162160790663864512,
  162160790664388672,
  162160790664388672,
  162160790663864512,
  162160790663864512,
  162160790664388672,
  162160790664388672,
  162160790664380482,
  162160790664380482,
  162160790663864512,
  162160790663864512,
  162160790663856322,
  162160790663856322,
  162160790664388672,
  162160790664388672,
  162160790664388672,
  162160790664388672,
  162160790664388672,
  162160790664388672,
  162160790664388672,
  162160790664388672,
  162160790664380482,
  162160790664380482,
  162160790664388672,
  162160790664388672,
  162160790664380482,
  162160790664380482]

/-- Check ccsdtq_t4_aaabaaab. C83 -/
theorem ccsdtq_t4_aaabaaab : isZeroSpin kinds [aᵥ, bᵥ, cᵥ, dᵥ, iₒ, jₒ, kₒ, lₒ] 2 [false, false, false, true, false, false, false, true]
    (Prog.outs [4, 5, 6, 7, 0, 1, 2, 3] (Prog.thin split_quad_t4 (Prog.part [[23, 39, 39]] (wnT2cubed_toT4_0)) ++ (Prog.thin split_lin_t4 (linT3))))
    (Prog.scale (-1) (ccsdtq_t4_aaabaaab))
    (ccsdtq_t4_aaabaaab_cert_0 ++ (ccsdtq_t4_aaabaaab_cert_1 ++ (ccsdtq_t4_aaabaaab_cert_2))) = true := by decide +kernel

def ccsdtq_t4_aabbaabb_cert_0 : List Nat := [11531498049927659584,
  11531498049927659584,
  11531497912488714304,
  11531497775116861504,
  11531498049894105154,
  11531498049927643204,
  11531497912455159874,
  11531497775116845124,
  11531498047814246464,
  11531498047814246464,
  9226217988520427584,
  9226217988520427584,
  9226217851081482304,
  9226217713709629504,
  11531498047814238274,
  11531498047814238274,
  11531498047780683844,
  11531498047747145794,
  11531497910341730374,
  11531497635530948674,
  9226217988486873154,
  9226217988520411204,
  9226217851047927874,
  9226217713709613124,
  11531498047747137604,
  11531498047747137604,
  11531497910308184134,
  11531497635530940484,
  11531497772869247044,
  11531497772869247044,
  11531497772869238854,
  11531497635463848004,
  11531489251721748544,
  11531480459923169344,
  9226209192427929664,
  9226200400629350464,
  9226209054988984384,
  9226200125818552384,
  11531489251721740354,
  11531480459923161154,
  11531489251688185924,
  11531480459856068674,
  11531489114249232454,
  11531480047639871554,
  9226209192394375234,
  9226200400629334084,
  9226209054955429954,
  9226200125818536004,
  11531489251654639684,
  11531480459856060484,
  11531489114215686214,
  11531480047639863364,
  11531488976776749124,
  11531480184978169924,
  11531488976776740934,
  11531480047572770884,
  9226217986406490304,
  9226217988552925504,
  9226217986372944064,
  9226217988519379264,
  9226217848933998784,
  9226217713708581184,
  9226217986406482114,
  9226217988552917314,
  11531498045633200324,
  11531498047746097474,
  11531497908194246854,
  11531497635529900354,
  9226217986339389634,
  9226217988519362884,
  9226217848900444354,
  9226217713708564804,
  11531498045599654084,
  11531498047746089284,
  11531497908160700614,
  11531497635529892164,
  9226217711461490884,
  9226217713607926084,
  9226217711461482694,
  9226217576202527044,
  9226209190313992384,
  9226200400661848384,
  9226209190280446144,
  9226200400628302144,
  9226209052841500864,
  9226200125817504064,
  9226209190313984194,
  9226200400661840194,
  11531489249540702404,
  11531480459855020354,
  11531489112101748934,
  11531480047638823234,
  9226209190246891714,
  9226200400628285764,
  9226209052807946434,
  9226200125817487684,
  11531489249507156164,
  11531480459855012164,
  11531489112068202694,
  11531480047638815044,
  9226208915368992964,
  9226200125716848964,
  9226208915368984774,
  9226199988311449924,
  9226200394187407684,
  9226200394153869634,
  9226200256748454214,
  9226199981937672514,
  9226200394153861444,
  9226200394153861444,
  9226200256714907974,
  9226199981937664324,
  164412590478073920,
  164412590478073920,
  164412453072674880,
  164412453072674880,
  164412315633729600,
  164412453005582400,
  164412590478065730,
  164412590478065730,
  164412453072666690,
  164412453072666690,
  164412178194776130,
  164412453005557830,
  164403796532535360,
  164403796532535360,
  164403659127136320,
  164403659127136320,
  164403521688191040,
  164403659060043840,
  164403796532527170,
  164403796532527170,
  164403659127128130,
  164403659127128130,
  164403384249237570,
  164403659060019270,
  164412588331114560,
  164412588331114560,
  164412450925715520,
  164412450925715520,
  164412588331106370,
  164412588331106370,
  164412450925707330,
  164412450925707330,
  164412588297551940,
  164412588264013890,
  164412450858598470,
  164412176047816770,
  164412313486753860,
  164412450825068610,
  164412313453199430,
  164412176014270530,
  164412176047808580,
  164412450825052230,
  164412176014254150,
  164412176014254150,
  164403792238616640,
  164395000440037440,
  164403654833217600,
  164394863034638400,
  164403792238608450,
  164395000440029250,
  164403654833209410,
  164394863034630210,
  164403792205054020,
  164395000372936770,
  164403654766100550,
  164394588156739650,
  164403517394255940,
  164394862933991490,
  164403517360701510,
  164394588123193410,
  164403379955310660,
  164394862933975110,
  164403379921756230,
  164394588123177030,
  164395000440037440,
  164403792238616640,
  164394863034638400,
  164403654833217600,
  164394725595693120,
  164403654766125120,
  164395000440029250,
  164403792238608450,
  164394863034630210,
  164403654833209410,
  164394725595676740,
  164403654732570690,
  164394725562122310,
  164403379921772610,
  164394588156739650,
  164403654766100550,
  164394588156731460,
  164403654732554310,
  164394588123177030,
  164403379921756230,
  164394998293078080,
  164394998293078080,
  164394860887679040,
  164394860887679040,
  164394723448733760,
  164394860820586560,
  164394998293069890,
  164394998293069890,
  164394860887670850,
  164394860887670850,
  164394723448717380,
  164394860787032130,
  164394723415162950,
  164394585976234050,
  164394586009780290,
  164394860820561990,
  164394586009772100,
  164394860787015750,
  164394585976217670,
  164394585976217670,
  164412586183631040,
  164412588330066240,
  164412448778232000,
  164412450924667200,
  164412586183622850,
  164412588330058050,
  164412448778223810,
  164412450924659010,
  164412586150068420,
  164412588262965570,
  164412448711114950,
  164412176046768450,
  164412311339270340,
  164412450824020290,
  164412311305715910,
  164412176013222210,
  164412173900325060,
  164412450824003910,
  164412173866770630,
  164412176013205830,
  164403790091133120,
  164395000438989120,
  164403652685734080,
  164394863033590080,
  164403790091124930,
  164395000438980930,
  164403652685725890,
  164394863033581890,
  164403790057570500,
  164395000371888450,
  164403652618617030,
  164394588155691330,
  164403515246772420,
  164394862932943170,
  164403515213217990,
  164394588122145090,
  164403377807827140,
  164394862932926790,
  164403377774272710,
  164394588122128710,
  164394993964548420,
  164394993931010370,
  164394856525594950,
  164394581714813250,
  164394719153750340,
  164394856492065090,
  164394719120195910,
  164394581681267010,
  164394581714805060,
  164394856492048710,
  164394581681250630,
  164394581681250630,
  164386204347015360,
  164403792237044160,
  164386066941616320,
  164403654831645120,
  164385929502671040,
  164403654764552640,
  164386204347007170,
  164403792237035970,
  164386066941608130,
  164403654831636930,
  164385929502654660,
  164403654730998210,
  164385929469100230,
  164403379920200130,
  164385792063717570,
  164403654764528070,
  164385792063709380,
  164403654730981830,
  164385792030154950,
  164403379920183750,
  164386202200056000,
  164394998291505600,
  164386064794656960,
  164394860886106560,
  164385927355711680,
  164394860819014080,
  164386202200047810,
  164394998291497410,
  164386064794648770,
  164394860886098370,
  164385927355695300,
  164394860785459650,
  164385927322140870,
  164394585974661570,
  164385789916758210,
  164394860818989510,
  164385789916750020,
  164394860785443270,
  164385789883195590,
  164394585974645190,
  164386200019009860,
  164394993930486210,
  164386062580056390,
  164394581714289090,
  164385925208211780,
  164394856491540930,
  164385925174657350,
  164394581680742850,
  164385787769266500,
  164394856491524550,
  164385787735712070,
  164394581680726470,
  811818900033851113536,
  811818900033851113536,
  811818899896412168256,
  811818899759040315456,
  811818900033817559106,
  811818900033851097156,
  811818899896378613826,
  811818899759040299076,
  811818900031737700416,
  811818900031737700416,
  664280976239046705216,
  664280976239046705216,
  664280976101607759936,
  664280975964235907136,
  664280976239013150786,
  664280976239046688836,
  664280976101574205506,
  664280975964235890756,
  811818891235645202496,
  811818882443846623296,
  664280967442954207296,
  664280958651155628096,
  664280967305515262016,
  664280958376344830016,
  664280967442920652866,
  664280958651155611716,
  664280967305481707586,
  664280958376344813636,
  664280976241193140416,
  664280976241193140416,
  664280976103754195136,
  664280975966382342336,
  664280976241159585986,
  664280976241193124036,
  664280976103720640706,
  664280975966382325956,
  811818900031703105856,
  811818900029556670656,
  811818899894264160576,
  811818899754745872576,
  811818900031669551426,
  811818900029556654276,
  811818899894230606146,
  811818899754745856196,
  664280975964134203716,
  664280975961987768516,
  811818891235610083776,
  811818873647720054976,
  811818891098171138496,
  811818873372909256896,
  811818891235576529346,
  811818873647720038596,
  811818891098137584066,
  811818873372909240516,
  664280967168041181636,
  664280949580151152836,
  811818900029590216896,
  811818900031736652096,
  664280976236899221696,
  664280976239045656896,
  664280976099460276416,
  664280975964234858816,
  664280976236865667266,
  664280976239045640516,
  664280976099426721986,
  664280975964234842436,
  811818891233497718976,
  811818882443845574976,
  664280967440806723776,
  664280958651154579776,
  664280967303367778496,
  664280958376343781696,
  664280967440773169346,
  664280958651154563396,
  664280967303334224066,
  664280958376343765316,
  811818900029556146496,
  811818900029556146496,
  811818899892117201216,
  811818899754745348416]
def ccsdtq_t4_aabbaabb_cert_1 : List Nat := [811818900029522592066,
  811818900029556130116,
  811818899892083646786,
  811818899754745332036,
  664280975961987244356,
  664280975961987244356,
  811818891233463124416,
  811818873647719530816,
  811818891096024179136,
  811818873372908732736,
  811818891233429569986,
  811818873647719514436,
  811818891095990624706,
  811818873372908716356,
  664280967165894222276,
  664280949580150628676,
  811818882437371150656,
  811818882437371150656,
  811818882299932205376,
  811818882162560352576,
  811818882437337596226,
  811818882437371134276,
  811818882299898650946,
  811818882162560336196,
  664280958644713177536,
  664280949850768163136,
  664280958507274232256,
  664280949575957365056,
  664280958644679623106,
  664280949850768146756,
  664280958507240677826,
  664280949575957348676,
  162160790664388672,
  162160790664388672,
  162160790664380482,
  162160790664380482,
  162160788517429312,
  162160788517429312,
  162160788517421122,
  162160788517421122,
  162160788483866692,
  162160788450328642,
  162160651044913222,
  162160376234131522,
  162151992424931392,
  162143200626352192,
  162151992424923202,
  162143200626344002,
  162151992391368772,
  162143200559251522,
  162151854952415302,
  162142788343054402,
  162160786369945792,
  162160788516380992,
  162160786369937602,
  162160788516372802,
  162160786336383172,
  162160788449280322,
  162160648897429702,
  162160376233083202,
  162151990277447872,
  162143200625303872,
  162151990277439682,
  162143200625295682,
  162151990243885252,
  162143200558203202,
  162151852804931782,
  162142788342006082,
  162143194150863172,
  162143194117325122,
  162143056711909702,
  162142781901128002,
  2283003892736064,
  2283003892736064,
  2283003859189824,
  2283003859189824,
  2282866420244544,
  2282729048391744,
  2283003825635394,
  2283003859173444,
  2282866386690114,
  2282729048375364,
  2283003892211904,
  2283003892211904,
  2283003858665664,
  2283003858665664,
  2282866419720384,
  2282729047867584,
  2283003825111234,
  2283003858649284,
  2282866386165954,
  2282729047851204,
  2283001711182144,
  2282999564746944,
  2282864272236864,
  2282724753948864,
  2283001677627714,
  2282999564730564,
  2282864238682434,
  2282724753932484,
  2282726799728964,
  2282724653293764,
  2274205618160064,
  2256617728131264,
  2274068179214784,
  2256342917333184,
  2274205584605634,
  2256617728114884,
  2274068145660354,
  2256342917316804,
  2273930706706884,
  2256342816678084,
  11531498049961205824,
  11531498049961205824,
  11531498049961197634,
  11531498049961197634,
  11531498049961205824,
  11531498049961205824,
  11531498049961197634,
  11531498049961197634,
  11531498049961205824,
  11531498049961205824,
  11531498049961205824,
  11531498049961205824,
  9226217990700933184,
  9226217990700933184,
  11531498049961205824,
  11531498049961205824,
  9226217990700933184,
  9226217990700933184,
  11531498049961205824,
  11531498049961205824,
  11531498049961205824,
  11531498049961205824,
  9226217990700933184,
  9226217990700933184,
  11531498049961205824,
  11531498049961205824,
  9226217990700933184,
  9226217990700933184,
  11531498049961205824,
  11531498049961205824,
  11531498049961205824,
  11531498049961205824,
  9226217990700933184,
  9226217990700933184,
  11531498049961205824,
  11531498049961205824,
  9226217990700933184,
  9226217990700933184,
  11531498049961205824,
  11531498049961205824,
  11531498049961205824,
  11531498049961205824,
  9226217990700933184,
  9226217990700933184,
  11531498049961205824,
  11531498049961205824,
  9226217990700933184,
  9226217990700933184,
  11531498049961205824,
  11531498049961205824,
  11531497912555806784,
  11531497912555806784,
  11531498049961205824,
  11531498049961205824,
  11531497912555806784,
  11531497912555806784,
  164412590478073920,
  164412590478073920,
  164412590478065730,
  164412590478065730,
  164412590478073920,
  164412590478073920,
  164412453072674880,
  164412453072674880,
  164412590478073920,
  164412590478073920,
  164412590478065730,
  164412590478065730,
  164412590477549760,
  164412590477549760,
  164412590477541570,
  164412590477541570,
  164412590478073920,
  164412590478073920,
  164412590478065730,
  164412590478065730,
  164412590478073920,
  164412590478073920,
  164412590478065730,
  164412590478065730,
  164412590477549760,
  164412590477549760,
  164412590477541570,
  164412590477541570,
  164412590478073920,
  164412590478073920,
  164412590478073920,
  164412590478073920,
  164412590478073920,
  164412590478073920,
  164412590478073920,
  164412590478073920,
  164412590478065730,
  164412590478065730,
  164412590478073920,
  164412590478073920,
  164412590478065730,
  164412590478065730,
  164412590478073920,
  164412590478073920,
  164412590477549760,
  164412590477549760,
  164412590478073920,
  164412590478073920,
  164412590477549760,
  164412590477549760,
  164412590478073920,
  164412590478073920,
  164412590478065730,
  164412590478065730,
  164412590477549760,
  164412590477549760,
  164412590477541570,
  164412590477541570,
  164412590478073920,
  164412590478073920,
  164412590478073920,
  164412590478073920,
  164412590478073920,
  164412590478073920,
  164412590478073920,
  164412590478073920,
  164412590477549760,
  164412590477549760,
  164412590478073920,
  164412590478073920,
  164412590477549760,
  164412590477549760,
  164412590478073920,
  164412590478073920,
  164412590478065730,
  164412590478065730,
  164412590478073920,
  164412590478073920,
  164412453072674880,
  164412453072674880,
  164412590478073920,
  164412590478073920,
  164412590478065730,
  164412590478065730,
  164412590478073920,
  164412590478073920,
  164412590478073920,
  164412590478073920,
  164412590478073920,
  164412590478073920,
  164412590478073920,
  164412590478073920,
  164412590478065730,
  164412590478065730,
  164412590478073920,
  164412590478073920,
  164412590478065730,
  164412590478065730,
  164412590478073920,
  164412590478073920,
  164412590478073920,
  164412590478073920,
  164412590478073920,
  164412590478073920,
  164412590478073920,
  164412590478073920,
  164412590478065730,
  164412590478065730,
  164412590477549760,
  164412590477549760,
  164412590477541570,
  164412590477541570,
  164412590478073920,
  164412590478073920,
  164412453072674880,
  164412453072674880,
  164412590477549760,
  164412590477549760,
  164412453072150720,
  164412453072150720,
  164412590478073920,
  164412590478073920,
  164412590478065730,
  164412590478065730,
  164403796532535360,
  164403796532535360,
  164403796532527170,
  164403796532527170,
  164412590478073920,
  164412590478073920,
  164412590478065730,
  164412590478065730,
  164412590477549760,
  164412590477549760,
  164412590477541570,
  164412590477541570,
  164412590478073920,
  164412590478073920,
  164412590478065730,
  164412590478065730,
  164403796532535360,
  164403796532535360,
  164403796532527170,
  164403796532527170,
  164412590478073920,
  164412590478073920,
  164412590477549760,
  164412590477549760,
  164412590478073920,
  164412590478073920,
  164412590478065730,
  164412590478065730,
  164412590477549760,
  164412590477549760,
  164412590477541570,
  164412590477541570,
  164412590478073920,
  164412590478073920,
  164403796532535360,
  164403796532535360,
  164412590478073920,
  164412590478073920,
  164412590477549760,
  164412590477549760,
  164412590478073920,
  164412590478073920,
  164403796532535360,
  164403796532535360,
  164412590478073920,
  164412590478073920,
  164412590478065730,
  164412590478065730,
  164412590477549760,
  164412590477549760,
  164412590477541570,
  164412590477541570,
  164412590478073920,
  164412590478073920,
  164412453072674880,
  164412453072674880,
  164412590477549760,
  164412590477549760,
  164412453072150720,
  164412453072150720,
  164412590478073920,
  164412590478073920,
  164412590478065730,
  164412590478065730,
  164412590477549760,
  164412590477549760,
  164412590477541570,
  164412590477541570,
  164412590478073920,
  164412590478073920,
  164412590477549760,
  164412590477549760,
  164412590478073920,
  164412590478073920,
  164412590478065730,
  164412590478065730,
  164412590477549760,
  164412590477549760,
  164412590477541570,
  164412590477541570,
  164412590478073920,
  164412590478073920,
  164412590477549760,
  164412590477549760,
  811818900033884659776,
  811818900033884659776,
  664280976241227210816,
  664280976241227210816,
  811818900033884659776,
  811818900033884659776,
  811818899896479260736,
  811818899896479260736,
  664280976241227210816,
  664280976241227210816,
  664280976103821811776,
  664280976103821811776,
  811818900033884659776,
  811818900033884659776,
  664280976241227210816,
  664280976241227210816,
  811818900033884659776,
  811818900033884659776,
  664280976241227210816,
  664280976241227210816,
  664280976241226686656,
  664280976241226686656,
  664280976241227210816,
  664280976241227210816]
def ccsdtq_t4_aabbaabb_cert_2 : List Nat := [664280976103821811776,
  664280976103821811776,
  664280976241226686656,
  664280976241226686656,
  664280976103821287616,
  664280976103821287616,
  664280976241227210816,
  664280976241227210816,
  664280976241226686656,
  664280976241226686656,
  811818900033884659776,
  811818900033884659776,
  811818900033884135616,
  811818900033884135616,
  664280976241227210816,
  664280976241227210816,
  811818900033884659776,
  811818900033884659776,
  664280976241227210816,
  664280976241227210816,
  664280976103821811776,
  664280976103821811776,
  811818900033884659776,
  811818900033884659776,
  811818899896479260736,
  811818899896479260736,
  664280976241227210816,
  664280976241227210816,
  811818900033884659776,
  811818900033884659776,
  811818900033884659776,
  811818900033884659776,
  2283003892736064,
  2283003892736064,
  2283003892211904,
  2283003892211904,
  2283003892736064,
  2283003892736064,
  2282866487337024,
  2282866487337024,
  2283003892211904,
  2283003892211904,
  2282866486812864,
  2282866486812864,
  2283003892736064,
  2283003892736064,
  2283003892211904,
  2283003892211904,
  2283003892736064,
  2283003892736064,
  2283003892211904,
  2283003892211904,
  2283003892736064,
  2283003892736064,
  2274209947197504,
  2274209947197504,
  2283003892736064,
  2283003892736064,
  2274209947197504,
  2274209947197504,
  2283003892736064,
  2283003892736064,
  2282866487337024,
  2282866487337024,
  2274209947197504,
  2274209947197504,
  2274072541798464,
  2274072541798464,
  2283003892736064,
  2283003892736064,
  2274209947197504,
  2274209947197504,
  162160790664388672,
  162160790664388672,
  162160653258989632,
  162160653258989632,
  162160790664388672,
  162160790664388672,
  162160790664380482,
  162160790664380482,
  162160790664388672,
  162160790664388672,
  162160790664380482,
  162160790664380482,
  162160790664388672,
  162160790664388672,
  162160653258989632,
  162160653258989632,
  162160790663864512,
  162160790663864512,
  162160653258465472,
  162160653258465472,
  162160790664388672,
  162160790664388672,
  162160790664380482,
  162160790664380482,
  162160790663864512,
  162160790663864512,
  162160790663856322,
  162160790663856322,
  162160790664388672,
  162160790664388672,
  162160653258989632,
  162160653258989632,
  162160790664388672,
  162160790664388672,
  162160653258989632,
  162160653258989632,
  162160790664388672,
  162160790664388672,
  162160790664380482,
  162160790664380482]

/-- Check ccsdtq_t4_aabbaabb. C83 -/
theorem ccsdtq_t4_aabbaabb : isZeroSpin kinds [aᵥ, bᵥ, cᵥ, dᵥ, iₒ, jₒ, kₒ, lₒ] 2 [false, false, true, true, false, false, true, true]
    (Prog.outs [4, 5, 6, 7, 0, 1, 2, 3] (Prog.thin split_quad_t4 (Prog.part [[23, 39, 39]] (wnT2cubed_toT4_0)) ++ (Prog.thin split_lin_t4 (linT3))))
    (Prog.scale (-1) (ccsdtq_t4_aabbaabb))
    (ccsdtq_t4_aabbaabb_cert_0 ++ (ccsdtq_t4_aabbaabb_cert_1 ++ (ccsdtq_t4_aabbaabb_cert_2))) = true := by decide +kernel

def ccsdtq_t4_abbbabbb_cert_0 : List Nat := [11531498049961205824,
  11531498049961205824,
  11531498049927659584,
  11531498049927659584,
  11531497912488714304,
  11531497775116861504,
  11531498049894105154,
  11531498049927643204,
  11531497912455159874,
  11531497775116845124,
  11531498049894096964,
  11531498049894096964,
  11531497912455143494,
  11531497637677899844,
  11531497775016206404,
  11531497775016206404,
  11531497775016198214,
  11531497637610807364,
  11531498047814246464,
  11531498047814246464,
  11531498047780700224,
  11531498047780700224,
  11531497910341754944,
  11531497772969902144,
  11531498047747145794,
  11531498047780683844,
  11531497910308200514,
  11531497772969885764,
  11531498047747137604,
  11531498047747137604,
  11531497910308184134,
  11531497635530940484,
  11531497772869247044,
  11531497772869247044,
  11531497772869238854,
  11531497635463848004,
  11531489251721748544,
  11531480459923169344,
  11531489251688202304,
  11531480459889623104,
  11531489114249257024,
  11531480185078825024,
  11531489251654647874,
  11531480459889606724,
  11531489114215702594,
  11531480185078808644,
  11531489251654639684,
  11531480459856060484,
  11531489114215686214,
  11531480047639863364,
  11531488976776749124,
  11531480184978169924,
  11531488976776740934,
  11531480047572770884,
  9226217986406482114,
  9226217988552917314,
  9226217986372927684,
  9226217988485824834,
  9226217848933974214,
  9226217576269627714,
  9226217986339389634,
  9226217988519362884,
  9226217848900444354,
  9226217713708564804,
  9226217986339381444,
  9226217988485816644,
  9226217848900427974,
  9226217576269619524,
  9226217711461490884,
  9226217713607926084,
  9226217711461482694,
  9226217576202527044,
  9226209190313984194,
  9226200400661840194,
  9226209190280429764,
  9226200400594747714,
  9226209052841476294,
  9226199988378550594,
  9226209190246891714,
  9226200400628285764,
  9226209052807946434,
  9226200125817487684,
  9226209190246883524,
  9226200400594739524,
  9226209052807930054,
  9226199988378542404,
  9226208915368992964,
  9226200125716848964,
  9226208915368984774,
  9226199988311449924,
  9226200394220962114,
  9226200394220962114,
  9226200394187407684,
  9226200394153869634,
  9226200256748454214,
  9226199981937672514,
  9226200394153869634,
  9226200394187407684,
  9226200256714924354,
  9226200119376609604,
  9226200394153861444,
  9226200394153861444,
  9226200256714907974,
  9226199981937664324,
  9226200119275970884,
  9226200119275970884,
  9226200119275962694,
  9226199981870571844,
  164412590478073920,
  164412590478073920,
  164412453072674880,
  164412453072674880,
  164412315633729600,
  164412453005582400,
  164412590478065730,
  164412590478065730,
  164412453072666690,
  164412453072666690,
  164412590444511300,
  164412590410973250,
  164412453005557830,
  164412178194776130,
  164412315633713220,
  164412452972027970,
  164412315600158790,
  164412178161229890,
  164412178194776130,
  164412453005557830,
  164412178194767940,
  164412452972011590,
  164412178161213510,
  164412178161213510,
  164403796532535360,
  164403796532535360,
  164403659127136320,
  164403659127136320,
  164403521688191040,
  164403659060043840,
  164403796532527170,
  164403796532527170,
  164403659127128130,
  164403659127128130,
  164403796498972740,
  164403796465434690,
  164403659060019270,
  164403384249237570,
  164403521688174660,
  164403659026489410,
  164403521654620230,
  164403384215691330,
  164403384249237570,
  164403659060019270,
  164403384249229380,
  164403659026473030,
  164403384215674950,
  164403384215674950,
  164412588331114560,
  164412588331114560,
  164412450925715520,
  164412450925715520,
  164412313486770240,
  164412450858623040,
  164412588331106370,
  164412588331106370,
  164412450925707330,
  164412450925707330,
  164412588297551940,
  164412588264013890,
  164412450858598470,
  164412176047816770,
  164412313486753860,
  164412450825068610,
  164412313453199430,
  164412176014270530,
  164412176047816770,
  164412450858598470,
  164412176047808580,
  164412450825052230,
  164412176014254150,
  164412176014254150,
  164403792238616640,
  164395000440037440,
  164403654833217600,
  164394863034638400,
  164403517394272320,
  164394862967545920,
  164403792238608450,
  164395000440029250,
  164403654833209410,
  164394863034630210,
  164403792205054020,
  164395000372936770,
  164403654766100550,
  164394588156739650,
  164403517394255940,
  164394862933991490,
  164403517360701510,
  164394588123193410,
  164403379955318850,
  164394862967521350,
  164403379955310660,
  164394862933975110,
  164403379921756230,
  164394588123177030,
  164395000440037440,
  164403792238616640,
  164394863034638400,
  164403654833217600,
  164394725595693120,
  164403654766125120,
  164395000440029250,
  164403792238608450,
  164394863034630210,
  164403654833209410,
  164395000406474820,
  164403792171515970,
  164394862967521350,
  164403379955318850,
  164394725595676740,
  164403654732570690,
  164394725562122310,
  164403379921772610,
  164394588156739650,
  164403654766100550,
  164394588156731460,
  164403654732554310,
  164394588123177030,
  164403379921756230,
  164394998293078080,
  164394998293078080,
  164394860887679040,
  164394860887679040,
  164394723448733760,
  164394860820586560,
  164394998293069890,
  164394998293069890,
  164394860887670850,
  164394860887670850,
  164394998259515460,
  164394998225977410,
  164394860820561990,
  164394586009780290,
  164394723448717380,
  164394860787032130,
  164394723415162950,
  164394585976234050,
  164394586009780290,
  164394860820561990,
  164394586009772100,
  164394860787015750,
  164394585976217670,
  164394585976217670,
  164412586183622850,
  164412588330058050,
  164412448778223810,
  164412450924659010,
  164412586150068420,
  164412588262965570,
  164412448711114950,
  164412176046768450,
  164412311339270340,
  164412450824020290,
  164412311305715910,
  164412176013222210,
  164403790091124930,
  164395000438980930,
  164403652685725890,
  164394863033581890,
  164403790057570500,
  164395000371888450,
  164403652618617030,
  164394588155691330,
  164403515246772420,
  164394862932943170,
  164403515213217990,
  164394588122145090,
  164394993998102850,
  164394993998102850,
  164394856592703810,
  164394856592703810,
  164394993964548420,
  164394993931010370,
  164394856525594950,
  164394581714813250,
  164394719153750340,
  164394856492065090,
  164394719120195910,
  164394581681267010,
  164386204347007170,
  164403792237035970,
  164386066941608130,
  164403654831636930,
  164386204313452740,
  164403792169943490,
  164386066874499270,
  164403379953746370,
  164385929502654660,
  164403654730998210,
  164385929469100230,
  164403379920200130,
  164385792063717570,
  164403654764528070,
  164385792063709380,
  164403654730981830,
  164385792030154950,
  164403379920183750,
  164386202200047810,
  164394998291497410,
  164386064794648770,
  164394860886098370,
  164386202166493380,
  164394998224404930,
  164386064727539910,
  164394586008207810,
  164385927355695300,
  164394860785459650,
  164385927322140870,
  164394585974661570,
  164385789916758210,
  164394860818989510,
  164385789916750020,
  164394860785443270,
  164385789883195590,
  164394585974645190,
  164386200052564290,
  164394993997578690,
  164386062647165250,
  164394856592179650,
  164386200019009860,
  164394993930486210,
  164386062580056390,
  164394581714289090,
  164385925208211780,
  164394856491540930,
  164385925174657350,
  164394581680742850,
  164385787769274690,
  164394856525070790,
  164385787769266500,
  164394856491524550,
  164385787735712070,
  164394581680726470,
  811818900033884659776,
  811818900033884659776,
  811818900033851113536,
  811818900033851113536,
  811818899896412168256,
  811818899759040315456,
  811818900031737700416,
  811818900031737700416,
  811818900031704154176,
  811818900031704154176,
  811818899894265208896,
  811818899756893356096,
  811818891235645202496,
  811818882443846623296,
  811818891235611656256,
  811818882443813077056,
  811818891098172710976,
  811818882169002278976,
  664280976241159585986,
  664280976241193124036,
  664280976103720640706,
  664280975966382325956,
  664280975966281687236,
  664280975966281687236,
  664280976239012102466,
  664280976236899205316,
  664280976101573157186,
  664280975962088407236,
  664280975964134203716,
  664280975961987768516,
  664280967442919080386,
  664280949855062589636,
  664280967305480135106,
  664280949580251791556,
  664280967168041181636,
  664280949580151152836,
  811818900029590216896,
  811818900031736652096,
  811818900029556670656,
  811818900031703105856,
  811818899892117725376,
  811818899756892307776,
  664280976236865667266,
  664280976239045640516,
  664280976099426721986,
  664280975964234842436,
  664280975961987768516,
  664280975964134203716,
  811818891233497718976,
  811818882443845574976,
  811818891233464172736,
  811818882443812028736,
  811818891096025227456,
  811818882169001230656,
  664280967440773169346,
  664280958651154563396,
  664280967303334224066,
  664280958376343765316]
def ccsdtq_t4_abbbabbb_cert_1 : List Nat := [664280967165895270596,
  664280958376243126596,
  811818900029589692736,
  811818900029589692736,
  811818900029556146496,
  811818900029556146496,
  811818899892117201216,
  811818899754745348416,
  664280976236865143106,
  664280976236898681156,
  664280976099426197826,
  664280975962087883076,
  664280975961987244356,
  664280975961987244356,
  811818891233496670656,
  811818873647753077056,
  811818891233463124416,
  811818873647719530816,
  811818891096024179136,
  811818873372908732736,
  664280967440772121026,
  664280949855062065476,
  664280967303333175746,
  664280949580251267396,
  664280967165894222276,
  664280949580150628676,
  811818882437404696896,
  811818882437404696896,
  811818882437371150656,
  811818882437371150656,
  811818882299932205376,
  811818882162560352576,
  664280958644680147266,
  664280958644713685316,
  664280958507241201986,
  664280958369902887236,
  664280958369802248516,
  664280958369802248516,
  811818882437404172736,
  811818873643459158336,
  811818882437370626496,
  811818873643425612096,
  811818882299931681216,
  811818873368614814016,
  664280958644679623106,
  664280949850768146756,
  664280958507240677826,
  664280949575957348676,
  664280958369801724356,
  664280949575856709956,
  162160790664388672,
  162160790664388672,
  162160790664380482,
  162160790664380482,
  162160790630826052,
  162160790597288002,
  162160653191872582,
  162160378381090882,
  162160788517429312,
  162160788517429312,
  162160788517421122,
  162160788517421122,
  162160788483866692,
  162160788450328642,
  162160651044913222,
  162160376234131522,
  162151992424931392,
  162143200626352192,
  162151992424923202,
  162143200626344002,
  162151992391368772,
  162143200559251522,
  162151854952415302,
  162142788343054402,
  162160786369937602,
  162160788516372802,
  162160786336383172,
  162160788449280322,
  162160648897429702,
  162160376233083202,
  162151990277439682,
  162143200625295682,
  162151990243885252,
  162143200558203202,
  162151852804931782,
  162142788342006082,
  162143194184417602,
  162143194184417602,
  162143194150863172,
  162143194117325122,
  162143056711909702,
  162142781901128002,
  2283003892736064,
  2283003892736064,
  2283003859189824,
  2283003859189824,
  2282866420244544,
  2282729048391744,
  2283003892211904,
  2283003892211904,
  2283003858665664,
  2283003858665664,
  2282866419720384,
  2282729047867584,
  2283003825111234,
  2283003858649284,
  2282866386165954,
  2282729047851204,
  2282728947212484,
  2282728947212484,
  2283001744728384,
  2282999598293184,
  2283001711182144,
  2282999564746944,
  2282864272236864,
  2282724753948864,
  2283001677627714,
  2282999564730564,
  2282864238682434,
  2282724753932484,
  2282726799728964,
  2282724653293764,
  2274205651706304,
  2256617761677504,
  2274205618160064,
  2256617728131264,
  2274068179214784,
  2256342917333184,
  2274205584605634,
  2256617728114884,
  2274068145660354,
  2256342917316804,
  2273930706706884,
  2256342816678084,
  11531498049961205824,
  11531498049961205824,
  11531498047814246464,
  11531498047814246464,
  11531498049961205824,
  11531498049961205824,
  11531498049961205824,
  11531498049961205824,
  11531498047814246464,
  11531498047814246464,
  11531498049961205824,
  11531498049961205824,
  11531498049961205824,
  11531498049961205824,
  11531498049927659584,
  11531498049927659584,
  11531498047814246464,
  11531498047814246464,
  11531498047780700224,
  11531498047780700224,
  11531498049961205824,
  11531498049961205824,
  11531498049927659584,
  11531498049927659584,
  11531498049961205824,
  11531498049961205824,
  11531498047814246464,
  11531498047814246464,
  11531498049961205824,
  11531498049961205824,
  11531498049961205824,
  11531498049961205824,
  11531497775083315264,
  11531497775083315264,
  11531498047814246464,
  11531498047814246464,
  11531497772936355904,
  11531497772936355904,
  11531498049961205824,
  11531498049961205824,
  11531497775083315264,
  11531497775083315264,
  11531498049961205824,
  11531498049961205824,
  11531497912555806784,
  11531497912555806784,
  11531498047814246464,
  11531498047814246464,
  11531497910408847424,
  11531497910408847424,
  11531498049961205824,
  11531498049961205824,
  11531497912555806784,
  11531497912555806784,
  164412590478073920,
  164412590478073920,
  164412588331114560,
  164412588331114560,
  164412590478073920,
  164412590478073920,
  164412453072674880,
  164412453072674880,
  164412588331114560,
  164412588331114560,
  164412450925715520,
  164412450925715520,
  164412590478073920,
  164412590478073920,
  164412590478073920,
  164412590478073920,
  164412590478073920,
  164412590478073920,
  164412590478073920,
  164412590478073920,
  164412453072674880,
  164412453072674880,
  164412590478073920,
  164412590478073920,
  164412453072674880,
  164412453072674880,
  164412590478073920,
  164412590478073920,
  164412588331114560,
  164412588331114560,
  164412590478073920,
  164412590478073920,
  164412590478073920,
  164412590478073920,
  164412590478073920,
  164412590478073920,
  164412590478073920,
  164412590478073920,
  164412588331114560,
  164412588331114560,
  164412590478073920,
  164412590478073920,
  164412588331114560,
  164412588331114560,
  164412590478073920,
  164412590478073920,
  164412588331114560,
  164412588331114560,
  164412590478073920,
  164412590478073920,
  164412590478073920,
  164412590478073920,
  164412590478073920,
  164412590478073920,
  164412590478073920,
  164412590478073920,
  164412590478073920,
  164412590478073920,
  164412590478073920,
  164412590478073920,
  164412590478073920,
  164412590478073920,
  164412590478073920,
  164412590478073920,
  164412590444527680,
  164412590444527680,
  164412588331114560,
  164412588331114560,
  164412588297568320,
  164412588297568320,
  164412590478073920,
  164412590478073920,
  164412590444527680,
  164412590444527680,
  164412590478073920,
  164412590478073920,
  164412590444527680,
  164412590444527680,
  164412590478073920,
  164412590478073920,
  164412590478073920,
  164412590478073920,
  164412590478073920,
  164412590478073920,
  164412590478073920,
  164412590478073920,
  164412453072674880,
  164412453072674880,
  164412590478073920,
  164412590478073920,
  164412453072674880,
  164412453072674880,
  164412590478073920,
  164412590478073920,
  164412590478073920,
  164412590478073920,
  164412590478073920,
  164412590478073920,
  164412590478073920,
  164412590478073920,
  164412590478073920,
  164412590478073920,
  164412590478073920,
  164412590478073920,
  164412590478073920,
  164412590478073920,
  164412590478073920,
  164412590478073920,
  164412590478073920,
  164412590478073920,
  164412590478073920,
  164412590478073920,
  164412590444527680,
  164412590444527680,
  164412590478073920,
  164412590478073920,
  164412590478073920,
  164412590478073920,
  164412590478073920,
  164412590478073920,
  164412590478073920,
  164412590478073920,
  164412453072674880,
  164412453072674880,
  164412590478073920,
  164412590478073920,
  164412453072674880,
  164412453072674880,
  164412590478073920,
  164412590478073920,
  164403796532535360,
  164403796532535360,
  164412590478073920,
  164412590478073920,
  164403796532535360,
  164403796532535360,
  164412590478073920,
  164412590478073920,
  164412453072674880,
  164412453072674880,
  164403796532535360,
  164403796532535360,
  164403659127136320,
  164403659127136320,
  164412590478073920,
  164412590478073920,
  164412590478073920,
  164412590478073920,
  164412590478073920,
  164412590478073920,
  164412590478073920,
  164412590478073920,
  164403796532535360,
  164403796532535360,
  164412590478073920,
  164412590478073920,
  164403796532535360,
  164403796532535360,
  164412590478073920,
  164412590478073920,
  164412590478073920,
  164412590478073920,
  164412590478073920,
  164412590478073920,
  164412590478073920,
  164412590478073920,
  164412590478073920,
  164412590478073920,
  164412590478073920,
  164412590478073920,
  164412590478073920,
  164412590478073920,
  164403796532535360,
  164403796532535360,
  164412590478073920,
  164412590478073920,
  164403796532535360,
  164403796532535360,
  164412590478073920,
  164412590478073920,
  164403796532535360,
  164403796532535360,
  164412590478073920,
  164412590478073920,
  164403796532535360,
  164403796532535360,
  164412590478073920,
  164412590478073920,
  164412590444527680,
  164412590444527680,
  164412590478073920,
  164412590478073920,
  164412590444527680,
  164412590444527680,
  164403796532535360,
  164403796532535360,
  164403796498989120,
  164403796498989120,
  164412590478073920,
  164412590478073920,
  164412590478073920,
  164412590478073920,
  164412590478073920,
  164412590478073920,
  164412590478073920,
  164412590478073920,
  164412453072674880,
  164412453072674880,
  164412590478073920,
  164412590478073920,
  164412453072674880,
  164412453072674880]
def ccsdtq_t4_abbbabbb_cert_2 : List Nat := [164412590478073920,
  164412590478073920,
  164412590478073920,
  164412590478073920,
  164412590478073920,
  164412590478073920,
  164412590478073920,
  164412590478073920,
  164412590478073920,
  164412590478073920,
  164412590478073920,
  164412590478073920,
  164412590478073920,
  164412590478073920,
  164412590478073920,
  164412590478073920,
  164412590478073920,
  164412590478073920,
  164412590478073920,
  164412590478073920,
  164412590444527680,
  164412590444527680,
  664280976241227210816,
  664280976241227210816,
  664280976241193664576,
  664280976241193664576,
  664280976239080251456,
  664280976239080251456,
  664280976239046705216,
  664280976239046705216,
  811818900033884659776,
  811818900033884659776,
  811818899896479260736,
  811818899896479260736,
  811818900031737700416,
  811818900031737700416,
  811818899894332301376,
  811818899894332301376,
  664280976241227210816,
  664280976241227210816,
  664280976239080251456,
  664280976239080251456,
  811818900033884659776,
  811818900033884659776,
  811818900031737700416,
  811818900031737700416,
  664280976241227210816,
  664280976241227210816,
  664280976241193664576,
  664280976241193664576,
  811818900033884659776,
  811818900033884659776,
  811818899896479260736,
  811818899896479260736,
  811818900033884659776,
  811818900033884659776,
  811818899896479260736,
  811818899896479260736,
  664280976241227210816,
  664280976241227210816,
  811818900033884659776,
  811818900033884659776,
  811818900033884659776,
  811818900033884659776,
  811818900033884659776,
  811818900033884659776,
  811818899896479260736,
  811818899896479260736,
  811818882441699663936,
  811818882441699663936,
  811818882304294264896,
  811818882304294264896,
  811818900033884659776,
  811818900033884659776,
  811818882441699663936,
  811818882441699663936,
  2283003892736064,
  2283003892736064,
  2283003859189824,
  2283003859189824,
  2283003892736064,
  2283003892736064,
  2282866487337024,
  2282866487337024,
  2283003892736064,
  2283003892736064,
  2282866487337024,
  2282866487337024,
  2283003892736064,
  2283003892736064,
  2283003892736064,
  2283003892736064,
  2283003892736064,
  2283003892736064,
  2283003892736064,
  2283003892736064,
  2283003859189824,
  2283003859189824,
  2274209947197504,
  2274209947197504,
  2274209913651264,
  2274209913651264,
  2283003892736064,
  2283003892736064,
  2282866487337024,
  2282866487337024,
  2274209947197504,
  2274209947197504,
  2274072541798464,
  2274072541798464,
  2283003892736064,
  2283003892736064,
  2274209947197504,
  2274209947197504,
  2283003892736064,
  2283003892736064,
  2274209947197504,
  2274209947197504,
  162160790664388672,
  162160790664388672,
  162160653258989632,
  162160653258989632,
  162160788517429312,
  162160788517429312,
  162160651112030272,
  162160651112030272,
  162160790664388672,
  162160790664388672,
  162160788517429312,
  162160788517429312,
  162160790664388672,
  162160790664388672,
  162160788517429312,
  162160788517429312,
  162160790664388672,
  162160790664388672,
  162160653258989632,
  162160653258989632,
  162160790664388672,
  162160790664388672,
  162160653258989632,
  162160653258989632,
  162160790664388672,
  162160790664388672,
  162160790664388672,
  162160790664388672,
  162160790664388672,
  162160790664388672,
  162160790664388672,
  162160790664388672,
  162160653258989632,
  162160653258989632,
  162143198479392832,
  162143198479392832,
  162143061073993792,
  162143061073993792,
  162160790664388672,
  162160790664388672,
  162143198479392832,
  162143198479392832]

/-- Check ccsdtq_t4_abbbabbb. C83 -/
theorem ccsdtq_t4_abbbabbb : isZeroSpin kinds [aᵥ, bᵥ, cᵥ, dᵥ, iₒ, jₒ, kₒ, lₒ] 2 [false, true, true, true, false, true, true, true]
    (Prog.outs [4, 5, 6, 7, 0, 1, 2, 3] (Prog.thin split_quad_t4 (Prog.part [[23, 39, 39]] (wnT2cubed_toT4_0)) ++ (Prog.thin split_lin_t4 (linT3))))
    (Prog.scale (-1) (ccsdtq_t4_abbbabbb))
    (ccsdtq_t4_abbbabbb_cert_0 ++ (ccsdtq_t4_abbbabbb_cert_1 ++ (ccsdtq_t4_abbbabbb_cert_2))) = true := by decide +kernel

def ccsdtq_t4_bbbbbbbb_cert_0 : List Nat := [11531498049961205824,
  11531498049961205824,
  11531498049927659584,
  11531498049927659584,
  11531497912488714304,
  11531497775116861504,
  11531498049961197634,
  11531498049961197634,
  11531498049927643204,
  11531498049894105154,
  11531497912488689734,
  11531497637677908034,
  11531498049894105154,
  11531498049927643204,
  11531497912455159874,
  11531497775116845124,
  11531498049894096964,
  11531498049894096964,
  11531497912455143494,
  11531497637677899844,
  11531497775016206404,
  11531497775016206404,
  11531497775016198214,
  11531497637610807364,
  11531498047814246464,
  11531498047814246464,
  11531498047780700224,
  11531498047780700224,
  11531497910341754944,
  11531497772969902144,
  11531498047814238274,
  11531498047814238274,
  11531498047780683844,
  11531498047747145794,
  11531497910341730374,
  11531497635530948674,
  11531498047747145794,
  11531498047780683844,
  11531497910308200514,
  11531497772969885764,
  11531498047747137604,
  11531498047747137604,
  11531497910308184134,
  11531497635530940484,
  11531497772869247044,
  11531497772869247044,
  11531497772869238854,
  11531497635463848004,
  11531489251721748544,
  11531480459923169344,
  11531489251688202304,
  11531480459889623104,
  11531489114249257024,
  11531480185078825024,
  11531489251721740354,
  11531480459923161154,
  11531489251688185924,
  11531480459856068674,
  11531489114249232454,
  11531480047639871554,
  11531489251654647874,
  11531480459889606724,
  11531489114215702594,
  11531480185078808644,
  11531489251654639684,
  11531480459856060484,
  11531489114215686214,
  11531480047639863364,
  11531488976776749124,
  11531480184978169924,
  11531488976776740934,
  11531480047572770884,
  9226217986406490304,
  9226217988552925504,
  9226217986372944064,
  9226217988519379264,
  9226217848933998784,
  9226217713708581184,
  9226217986406482114,
  9226217988552917314,
  9226217986372927684,
  9226217988485824834,
  9226217848933974214,
  9226217576269627714,
  9226217986339389634,
  9226217988519362884,
  9226217848900444354,
  9226217713708564804,
  9226217986339381444,
  9226217988485816644,
  9226217848900427974,
  9226217576269619524,
  9226217711461490884,
  9226217713607926084,
  9226217711461482694,
  9226217576202527044,
  9226209190313992384,
  9226200400661848384,
  9226209190280446144,
  9226200400628302144,
  9226209052841500864,
  9226200125817504064,
  9226209190313984194,
  9226200400661840194,
  9226209190280429764,
  9226200400594747714,
  9226209052841476294,
  9226199988378550594,
  9226209190246891714,
  9226200400628285764,
  9226209052807946434,
  9226200125817487684,
  9226209190246883524,
  9226200400594739524,
  9226209052807930054,
  9226199988378542404,
  9226208915368992964,
  9226200125716848964,
  9226208915368984774,
  9226199988311449924,
  9226200394220970304,
  9226200394220970304,
  9226200394187424064,
  9226200394187424064,
  9226200256748478784,
  9226200119376625984,
  9226200394220962114,
  9226200394220962114,
  9226200394187407684,
  9226200394153869634,
  9226200256748454214,
  9226199981937672514,
  9226200394153869634,
  9226200394187407684,
  9226200256714924354,
  9226200119376609604,
  9226200394153861444,
  9226200394153861444,
  9226200256714907974,
  9226199981937664324,
  9226200119275970884,
  9226200119275970884,
  9226200119275962694,
  9226199981870571844,
  164412590478073920,
  164412590478073920,
  164412453072674880,
  164412453072674880,
  164412315633729600,
  164412453005582400,
  164412590478065730,
  164412590478065730,
  164412453072666690,
  164412453072666690,
  164412590444511300,
  164412590410973250,
  164412453005557830,
  164412178194776130,
  164412315633713220,
  164412452972027970,
  164412315600158790,
  164412178161229890,
  164412178194776130,
  164412453005557830,
  164412178194767940,
  164412452972011590,
  164412178161213510,
  164412178161213510,
  164403796532535360,
  164403796532535360,
  164403659127136320,
  164403659127136320,
  164403521688191040,
  164403659060043840,
  164403796532527170,
  164403796532527170,
  164403659127128130,
  164403659127128130,
  164403796498972740,
  164403796465434690,
  164403659060019270,
  164403384249237570,
  164403521688174660,
  164403659026489410,
  164403521654620230,
  164403384215691330,
  164403384249237570,
  164403659060019270,
  164403384249229380,
  164403659026473030,
  164403384215674950,
  164403384215674950,
  164412588331114560,
  164412588331114560,
  164412450925715520,
  164412450925715520,
  164412313486770240,
  164412450858623040,
  164412588331106370,
  164412588331106370,
  164412450925707330,
  164412450925707330,
  164412588297551940,
  164412588264013890,
  164412450858598470,
  164412176047816770,
  164412313486753860,
  164412450825068610,
  164412313453199430,
  164412176014270530,
  164412176047816770,
  164412450858598470,
  164412176047808580,
  164412450825052230,
  164412176014254150,
  164412176014254150,
  164403792238616640,
  164395000440037440,
  164403654833217600,
  164394863034638400,
  164403517394272320,
  164394862967545920,
  164403792238608450,
  164395000440029250,
  164403654833209410,
  164394863034630210,
  164403792205054020,
  164395000372936770,
  164403654766100550,
  164394588156739650,
  164403517394255940,
  164394862933991490,
  164403517360701510,
  164394588123193410,
  164403379955318850,
  164394862967521350,
  164403379955310660,
  164394862933975110,
  164403379921756230,
  164394588123177030,
  164395000440037440,
  164403792238616640,
  164394863034638400,
  164403654833217600,
  164394725595693120,
  164403654766125120,
  164395000440029250,
  164403792238608450,
  164394863034630210,
  164403654833209410,
  164395000406474820,
  164403792171515970,
  164394862967521350,
  164403379955318850,
  164394725595676740,
  164403654732570690,
  164394725562122310,
  164403379921772610,
  164394588156739650,
  164403654766100550,
  164394588156731460,
  164403654732554310,
  164394588123177030,
  164403379921756230,
  164394998293078080,
  164394998293078080,
  164394860887679040,
  164394860887679040,
  164394723448733760,
  164394860820586560,
  164394998293069890,
  164394998293069890,
  164394860887670850,
  164394860887670850,
  164394998259515460,
  164394998225977410,
  164394860820561990,
  164394586009780290,
  164394723448717380,
  164394860787032130,
  164394723415162950,
  164394585976234050,
  164394586009780290,
  164394860820561990,
  164394586009772100,
  164394860787015750,
  164394585976217670,
  164394585976217670,
  164412586183631040,
  164412588330066240,
  164412448778232000,
  164412450924667200,
  164412311339286720,
  164412450857574720,
  164412586183622850,
  164412588330058050,
  164412448778223810,
  164412450924659010,
  164412586150068420,
  164412588262965570,
  164412448711114950,
  164412176046768450,
  164412311339270340,
  164412450824020290,
  164412311305715910,
  164412176013222210,
  164412173900333250,
  164412450857550150,
  164412173900325060,
  164412450824003910,
  164412173866770630,
  164412176013205830,
  164403790091133120,
  164395000438989120,
  164403652685734080,
  164394863033590080,
  164403515246788800,
  164394862966497600,
  164403790091124930,
  164395000438980930,
  164403652685725890,
  164394863033581890,
  164403790057570500,
  164395000371888450,
  164403652618617030,
  164394588155691330,
  164403515246772420,
  164394862932943170,
  164403515213217990,
  164394588122145090,
  164403377807835330,
  164394862966473030,
  164403377807827140,
  164394862932926790,
  164403377774272710,
  164394588122128710,
  164394993998111040,
  164394993998111040,
  164394856592712000,
  164394856592712000,
  164394719153766720,
  164394856525619520,
  164394993998102850,
  164394993998102850,
  164394856592703810,
  164394856592703810,
  164394993964548420,
  164394993931010370,
  164394856525594950,
  164394581714813250,
  164394719153750340,
  164394856492065090,
  164394719120195910,
  164394581681267010,
  164394581714813250,
  164394856525594950,
  164394581714805060,
  164394856492048710,
  164394581681250630,
  164394581681250630,
  164386204347015360,
  164403792237044160,
  164386066941616320,
  164403654831645120,
  164385929502671040,
  164403654764552640,
  164386204347007170,
  164403792237035970,
  164386066941608130,
  164403654831636930,
  164386204313452740,
  164403792169943490,
  164386066874499270,
  164403379953746370,
  164385929502654660,
  164403654730998210,
  164385929469100230,
  164403379920200130,
  164385792063717570,
  164403654764528070,
  164385792063709380,
  164403654730981830,
  164385792030154950,
  164403379920183750,
  164386202200056000,
  164394998291505600,
  164386064794656960,
  164394860886106560,
  164385927355711680,
  164394860819014080,
  164386202200047810,
  164394998291497410,
  164386064794648770,
  164394860886098370,
  164386202166493380,
  164394998224404930,
  164386064727539910,
  164394586008207810,
  164385927355695300,
  164394860785459650]
def ccsdtq_t4_bbbbbbbb_cert_1 : List Nat := [164385927322140870,
  164394585974661570,
  164385789916758210,
  164394860818989510,
  164385789916750020,
  164394860785443270,
  164385789883195590,
  164394585974645190,
  164386200052572480,
  164394993997586880,
  164386062647173440,
  164394856592187840,
  164385925208228160,
  164394856525095360,
  164386200052564290,
  164394993997578690,
  164386062647165250,
  164394856592179650,
  164386200019009860,
  164394993930486210,
  164386062580056390,
  164394581714289090,
  164385925208211780,
  164394856491540930,
  164385925174657350,
  164394581680742850,
  164385787769274690,
  164394856525070790,
  164385787769266500,
  164394856491524550,
  164385787735712070,
  164394581680726470,
  811818900033884659776,
  811818900033884659776,
  811818900033851113536,
  811818900033851113536,
  811818899896412168256,
  811818899759040315456,
  811818900033817559106,
  811818900033851097156,
  811818899896378613826,
  811818899759040299076,
  811818899758939660356,
  811818899758939660356,
  811818900031737700416,
  811818900031737700416,
  811818900031704154176,
  811818900031704154176,
  811818899894265208896,
  811818899756893356096,
  811818900031670599746,
  811818900031704137796,
  811818899894231654466,
  811818899756893339716,
  811818899756792700996,
  811818899756792700996,
  811818891235645202496,
  811818882443846623296,
  811818891235611656256,
  811818882443813077056,
  811818891098172710976,
  811818882169002278976,
  811818891235578101826,
  811818882443813060676,
  811818891098139156546,
  811818882169002262596,
  811818890960700203076,
  811818882168901623876,
  664280976241226686656,
  664280976241226686656,
  664280976241193140416,
  664280976241193140416,
  664280976103754195136,
  664280975966382342336,
  664280976241159585986,
  664280976241193124036,
  664280976103720640706,
  664280975966382325956,
  664280975966281687236,
  664280975966281687236,
  664280976239079203136,
  664280976236932767936,
  664280976239045656896,
  664280976236899221696,
  664280976101606711616,
  664280975962088423616,
  664280976239012102466,
  664280976236899205316,
  664280976101573157186,
  664280975962088407236,
  664280975964134203716,
  664280975961987768516,
  664280967442986181056,
  664280949855096152256,
  664280967442952634816,
  664280949855062606016,
  664280967305513689536,
  664280949580251807936,
  664280967442919080386,
  664280949855062589636,
  664280967305480135106,
  664280949580251791556,
  664280967168041181636,
  664280949580151152836,
  811818900029590216896,
  811818900031736652096,
  811818900029556670656,
  811818900031703105856,
  811818899892117725376,
  811818899756892307776,
  811818900029523116226,
  811818900031703089476,
  811818899892084170946,
  811818899756892291396,
  811818899754645217476,
  811818899756791652676,
  811818891233497718976,
  811818882443845574976,
  811818891233464172736,
  811818882443812028736,
  811818891096025227456,
  811818882169001230656,
  811818891233430618306,
  811818882443812012356,
  811818891095991673026,
  811818882169001214276,
  811818890958552719556,
  811818882168900575556,
  664280976236932243776,
  664280976236932243776,
  664280976236898697536,
  664280976236898697536,
  664280976099459752256,
  664280975962087899456,
  664280976236865143106,
  664280976236898681156,
  664280976099426197826,
  664280975962087883076,
  664280975961987244356,
  664280975961987244356,
  664280967440839221696,
  664280949855095628096,
  664280967440805675456,
  664280949855062081856,
  664280967303366730176,
  664280949580251283776,
  664280967440772121026,
  664280949855062065476,
  664280967303333175746,
  664280949580251267396,
  664280967165894222276,
  664280949580150628676,
  811818882437404696896,
  811818882437404696896,
  811818882437371150656,
  811818882437371150656,
  811818882299932205376,
  811818882162560352576,
  811818882437337596226,
  811818882437371134276,
  811818882299898650946,
  811818882162560336196,
  811818882162459697476,
  811818882162459697476,
  664280958644746723776,
  664280949850801709376,
  664280958644713177536,
  664280949850768163136,
  664280958507274232256,
  664280949575957365056,
  664280958644679623106,
  664280949850768146756,
  664280958507240677826,
  664280949575957348676,
  664280958369801724356,
  664280949575856709956,
  162160790664388672,
  162160790664388672,
  162160790664380482,
  162160790664380482,
  162160790630826052,
  162160790597288002,
  162160653191872582,
  162160378381090882,
  162160788517429312,
  162160788517429312,
  162160788517421122,
  162160788517421122,
  162160788483866692,
  162160788450328642,
  162160651044913222,
  162160376234131522,
  162151992424931392,
  162143200626352192,
  162151992424923202,
  162143200626344002,
  162151992391368772,
  162143200559251522,
  162151854952415302,
  162142788343054402,
  162160786369945792,
  162160788516380992,
  162160786369937602,
  162160788516372802,
  162160786336383172,
  162160788449280322,
  162160648897429702,
  162160376233083202,
  162151990277447872,
  162143200625303872,
  162151990277439682,
  162143200625295682,
  162151990243885252,
  162143200558203202,
  162151852804931782,
  162142788342006082,
  162143194184425792,
  162143194184425792,
  162143194184417602,
  162143194184417602,
  162143194150863172,
  162143194117325122,
  162143056711909702,
  162142781901128002,
  2283003892736064,
  2283003892736064,
  2283003859189824,
  2283003859189824,
  2282866420244544,
  2282729048391744,
  2283003825635394,
  2283003859173444,
  2282866386690114,
  2282729048375364,
  2282728947736644,
  2282728947736644,
  2283003892211904,
  2283003892211904,
  2283003858665664,
  2283003858665664,
  2282866419720384,
  2282729047867584,
  2283003825111234,
  2283003858649284,
  2282866386165954,
  2282729047851204,
  2282728947212484,
  2282728947212484,
  2283001744728384,
  2282999598293184,
  2283001711182144,
  2282999564746944,
  2282864272236864,
  2282724753948864,
  2283001677627714,
  2282999564730564,
  2282864238682434,
  2282724753932484,
  2282726799728964,
  2282724653293764,
  2274205651706304,
  2256617761677504,
  2274205618160064,
  2256617728131264,
  2274068179214784,
  2256342917333184,
  2274205584605634,
  2256617728114884,
  2274068145660354,
  2256342917316804,
  2273930706706884,
  2256342816678084,
  11531498049961205824,
  11531498049961205824,
  11531498049961197634,
  11531498049961197634,
  11531498047814246464,
  11531498047814246464,
  11531498047814238274,
  11531498047814238274,
  11531498049961205824,
  11531498049961205824,
  11531498049961197634,
  11531498049961197634,
  11531498049961205824,
  11531498049961205824,
  11531498049894096964,
  11531498049894096964,
  11531498047814246464,
  11531498047814246464,
  11531498047747137604,
  11531498047747137604,
  11531498049961205824,
  11531498049961205824,
  11531498049894096964,
  11531498049894096964,
  11531498049961205824,
  11531498049961205824,
  11531498049927659584,
  11531498049927659584,
  11531498047814246464,
  11531498047814246464,
  11531498047780700224,
  11531498047780700224,
  11531498049961205824,
  11531498049961205824,
  11531498049927659584,
  11531498049927659584,
  11531498049961205824,
  11531498049961205824,
  11531497637644345414,
  11531497637644345414,
  11531498047814246464,
  11531498047814246464,
  11531497635497386054,
  11531497635497386054,
  11531498049961205824,
  11531498049961205824,
  11531497637644345414,
  11531497637644345414,
  11531498049961205824,
  11531498049961205824,
  11531497775083315264,
  11531497775083315264,
  11531498047814246464,
  11531498047814246464,
  11531497772936355904,
  11531497772936355904,
  11531498049961205824,
  11531498049961205824,
  11531497775083315264,
  11531497775083315264,
  11531498049961205824,
  11531498049961205824,
  11531497912555806784,
  11531497912555806784,
  11531498047814246464,
  11531498047814246464,
  11531497910408847424,
  11531497910408847424,
  11531498049961205824,
  11531498049961205824,
  11531497912555806784,
  11531497912555806784,
  164412590478073920,
  164412590478073920,
  164412590478065730,
  164412590478065730,
  164412588331114560,
  164412588331114560,
  164412588331106370,
  164412588331106370,
  164412590478073920,
  164412590478073920,
  164412453072674880,
  164412453072674880,
  164412588331114560,
  164412588331114560,
  164412450925715520,
  164412450925715520,
  164412590478073920,
  164412590478073920,
  164412590478065730,
  164412590478065730,
  164412590477549760,
  164412590477549760,
  164412590477541570,
  164412590477541570,
  164412590478073920,
  164412590478073920,
  164412453072674880,
  164412453072674880,
  164412590477549760,
  164412590477549760,
  164412453072150720,
  164412453072150720,
  164412590478073920,
  164412590478073920,
  164412590478065730,
  164412590478065730,
  164412588331114560,
  164412588331114560,
  164412588331106370,
  164412588331106370,
  164412590478073920,
  164412590478073920,
  164412590478065730,
  164412590478065730,
  164412590477549760,
  164412590477549760,
  164412590477541570,
  164412590477541570,
  164412590478073920,
  164412590478073920,
  164412590410965060,
  164412590410965060,
  164412588331114560,
  164412588331114560,
  164412588264005700,
  164412588264005700]
def ccsdtq_t4_bbbbbbbb_cert_2 : List Nat := [164412590478073920,
  164412590478073920,
  164412590478065730,
  164412590478065730,
  164412588331114560,
  164412588331114560,
  164412588331106370,
  164412588331106370,
  164412590478073920,
  164412590478073920,
  164412590410965060,
  164412590410965060,
  164412590477549760,
  164412590477549760,
  164412590410440900,
  164412590410440900,
  164412590478073920,
  164412590478073920,
  164412590478065730,
  164412590478065730,
  164412590477549760,
  164412590477549760,
  164412590477541570,
  164412590477541570,
  164412590478073920,
  164412590478073920,
  164412590444527680,
  164412590444527680,
  164412588331114560,
  164412588331114560,
  164412588297568320,
  164412588297568320,
  164412590478073920,
  164412590478073920,
  164412590444527680,
  164412590444527680,
  164412590477549760,
  164412590477549760,
  164412590444003520,
  164412590444003520,
  164412590478073920,
  164412590478073920,
  164412590478065730,
  164412590478065730,
  164412586183106880,
  164412586183106880,
  164412586183098690,
  164412586183098690,
  164412590478073920,
  164412590478073920,
  164412453072674880,
  164412453072674880,
  164412586183106880,
  164412586183106880,
  164412448777707840,
  164412448777707840,
  164412590478073920,
  164412590478073920,
  164412590478065730,
  164412590478065730,
  164412586183106880,
  164412586183106880,
  164412586183098690,
  164412586183098690,
  164412590478073920,
  164412590478073920,
  164412590410965060,
  164412590410965060,
  164412586183106880,
  164412586183106880,
  164412586115998020,
  164412586115998020,
  164412590478073920,
  164412590478073920,
  164412590478065730,
  164412590478065730,
  164412586183106880,
  164412586183106880,
  164412586183098690,
  164412586183098690,
  164412590478073920,
  164412590478073920,
  164412590444527680,
  164412590444527680,
  164412586183106880,
  164412586183106880,
  164412586149560640,
  164412586149560640,
  164412590478073920,
  164412590478073920,
  164412590478065730,
  164412590478065730,
  164412590477549760,
  164412590477549760,
  164412590477541570,
  164412590477541570,
  164412590478073920,
  164412590478073920,
  164412453072674880,
  164412453072674880,
  164412590477549760,
  164412590477549760,
  164412453072150720,
  164412453072150720,
  164412590478073920,
  164412590478073920,
  164412590478065730,
  164412590478065730,
  164403796532535360,
  164403796532535360,
  164403796532527170,
  164403796532527170,
  164412590478073920,
  164412590478073920,
  164412453072674880,
  164412453072674880,
  164403796532535360,
  164403796532535360,
  164403659127136320,
  164403659127136320,
  164412590478073920,
  164412590478073920,
  164412590478065730,
  164412590478065730,
  164412590477549760,
  164412590477549760,
  164412590477541570,
  164412590477541570,
  164412590478073920,
  164412590478073920,
  164412590478065730,
  164412590478065730,
  164403796532535360,
  164403796532535360,
  164403796532527170,
  164403796532527170,
  164412590478073920,
  164412590478073920,
  164412590410965060,
  164412590410965060,
  164412590477549760,
  164412590477549760,
  164412590410440900,
  164412590410440900,
  164412590478073920,
  164412590478073920,
  164412590478065730,
  164412590478065730,
  164412590477549760,
  164412590477549760,
  164412590477541570,
  164412590477541570,
  164412590478073920,
  164412590478073920,
  164412590410965060,
  164412590410965060,
  164403796532535360,
  164403796532535360,
  164403796465426500,
  164403796465426500,
  164412590478073920,
  164412590478073920,
  164412590478065730,
  164412590478065730,
  164403796532535360,
  164403796532535360,
  164403796532527170,
  164403796532527170,
  164412590478073920,
  164412590478073920,
  164412590444527680,
  164412590444527680,
  164412590477549760,
  164412590477549760,
  164412590444003520,
  164412590444003520,
  164412590478073920,
  164412590478073920,
  164412590444527680,
  164412590444527680,
  164403796532535360,
  164403796532535360,
  164403796498989120,
  164403796498989120,
  164412590478073920,
  164412590478073920,
  164412590478065730,
  164412590478065730,
  164412590477549760,
  164412590477549760,
  164412590477541570,
  164412590477541570,
  164412590478073920,
  164412590478073920,
  164412453072674880,
  164412453072674880,
  164412590477549760,
  164412590477549760,
  164412453072150720,
  164412453072150720,
  164412590478073920,
  164412590478073920,
  164412590478065730,
  164412590478065730,
  164412590477549760,
  164412590477549760,
  164412590477541570,
  164412590477541570,
  164412590478073920,
  164412590478073920,
  164412590410965060,
  164412590410965060,
  164412590477549760,
  164412590477549760,
  164412590410440900,
  164412590410440900,
  164412590478073920,
  164412590478073920,
  164412590478065730,
  164412590478065730,
  164412590477549760,
  164412590477549760,
  164412590477541570,
  164412590477541570,
  164412590478073920,
  164412590478073920,
  164412590444527680,
  164412590444527680,
  164412590477549760,
  164412590477549760,
  164412590444003520,
  164412590444003520,
  811818900033884659776,
  811818900033884659776,
  811818900033851113536,
  811818900033851113536,
  811818900031737700416,
  811818900031737700416,
  811818900031704154176,
  811818900031704154176,
  811818900033884659776,
  811818900033884659776,
  811818899896479260736,
  811818899896479260736,
  811818900031737700416,
  811818900031737700416,
  811818899894332301376,
  811818899894332301376,
  811818900033884659776,
  811818900033884659776,
  811818900033817550916,
  811818900033817550916,
  811818900031737700416,
  811818900031737700416,
  811818900031670591556,
  811818900031670591556,
  811818900033884659776,
  811818900033884659776,
  811818900033851113536,
  811818900033851113536,
  811818900033884135616,
  811818900033884135616,
  811818900033850589376,
  811818900033850589376,
  811818900033884659776,
  811818900033884659776,
  811818899896479260736,
  811818899896479260736,
  811818900033884135616,
  811818900033884135616,
  811818899896478736576,
  811818899896478736576,
  811818900033884659776,
  811818900033884659776,
  811818900033817550916,
  811818900033817550916,
  811818900033884135616,
  811818900033884135616,
  811818900033817026756,
  811818900033817026756,
  811818900033884659776,
  811818900033884659776,
  811818900033851113536,
  811818900033851113536,
  811818882441699663936,
  811818882441699663936,
  811818882441666117696,
  811818882441666117696,
  811818900033884659776,
  811818900033884659776,
  811818899896479260736,
  811818899896479260736,
  811818882441699663936,
  811818882441699663936,
  811818882304294264896,
  811818882304294264896,
  811818900033884659776,
  811818900033884659776,
  811818900033817550916,
  811818900033817550916,
  811818882441699663936,
  811818882441699663936,
  811818882441632555076,
  811818882441632555076,
  2283003892736064,
  2283003892736064,
  2283003859189824,
  2283003859189824,
  2283003892211904,
  2283003892211904,
  2283003858665664,
  2283003858665664,
  2283003892736064,
  2283003892736064,
  2282866487337024,
  2282866487337024,
  2283003892211904,
  2283003892211904,
  2282866486812864,
  2282866486812864,
  2283003892736064,
  2283003892736064,
  2283003825627204,
  2283003825627204,
  2283003892211904,
  2283003892211904,
  2283003825103044,
  2283003825103044,
  2283003892736064,
  2283003892736064,
  2283003859189824,
  2283003859189824,
  2274209947197504,
  2274209947197504,
  2274209913651264,
  2274209913651264,
  2283003892736064,
  2283003892736064,
  2282866487337024,
  2282866487337024,
  2274209947197504,
  2274209947197504,
  2274072541798464,
  2274072541798464,
  2283003892736064,
  2283003892736064,
  2283003825627204,
  2283003825627204,
  2274209947197504,
  2274209947197504,
  2274209880088644,
  2274209880088644,
  162160790664388672,
  162160790664388672,
  162160653258989632,
  162160653258989632,
  162160788517429312,
  162160788517429312,
  162160651112030272,
  162160651112030272,
  162160790664388672,
  162160790664388672,
  162160790664380482,
  162160790664380482,
  162160788517429312,
  162160788517429312,
  162160788517421122,
  162160788517421122,
  162160790664388672,
  162160790664388672,
  162160653258989632,
  162160653258989632,
  162160790663864512,
  162160790663864512,
  162160653258465472,
  162160653258465472,
  162160790664388672,
  162160790664388672,
  162160790664380482,
  162160790664380482,
  162160790663864512,
  162160790663864512,
  162160790663856322,
  162160790663856322,
  162160790664388672,
  162160790664388672,
  162160653258989632,
  162160653258989632,
  162143198479392832,
  162143198479392832,
  162143061073993792,
  162143061073993792,
  162160790664388672,
  162160790664388672,
  162160790664380482,
  162160790664380482,
  162143198479392832,
  162143198479392832,
  162143198479384642,
  162143198479384642]

/-- Check ccsdtq_t4_bbbbbbbb. C83 -/
theorem ccsdtq_t4_bbbbbbbb : isZeroSpin kinds [aᵥ, bᵥ, cᵥ, dᵥ, iₒ, jₒ, kₒ, lₒ] 2 [true, true, true, true, true, true, true, true]
    (Prog.outs [4, 5, 6, 7, 0, 1, 2, 3] (Prog.thin split_quad_t4 (Prog.part [[23, 39, 39]] (wnT2cubed_toT4_0)) ++ (Prog.thin split_lin_t4 (linT3))))
    (Prog.scale (-1) (ccsdtq_t4_bbbbbbbb))
    (ccsdtq_t4_bbbbbbbb_cert_0 ++ (ccsdtq_t4_bbbbbbbb_cert_1 ++ (ccsdtq_t4_bbbbbbbb_cert_2))) = true := by decide +kernel

def test_t2_aaaa_cert_0 : List Nat := [11531489256015667264,
  11531489256015667264,
  6920366324980654144,
  9225083571726458944,
  6920375118926192704,
  9225092365671997504,
  6920366050169856064,
  9224520621806592064,
  6920374844115394624,
  9224529415752130624,
  11531489256015659074,
  11531489256015659074,
  6920366324980645954,
  9225083571726450754,
  6920375118926184514,
  9225092365671989314,
  6920366050169847874,
  9224520621806583874,
  6920374844115386434,
  9224529415752122434,
  11531489256015667264,
  11531489256015667264,
  6920375118926192704,
  9225092365671997504,
  6920374844115394624,
  9224529415752130624,
  11530926443501199424,
  11530926443501199424,
  11530926168690401344,
  11530363493581332544,
  11531489256015667264,
  11531489256015667264,
  11531489256015659074,
  11531489256015659074,
  6920375118926184514,
  9225092365671989314,
  6920374844115386434,
  9224529415752122434,
  11530926443501191234,
  11530926443501191234,
  11530926168690393154,
  11530363493581324354,
  11531489256015659074,
  11531489256015659074,
  9225083159510261824,
  4614523315800514624,
  6919803100249989184,
  4613960503286046784,
  6919811894195527744,
  4613969297231585344,
  4613960228475248704,
  4613960228475248704,
  4613969022420787264,
  4613969022420787264,
  4613960228475248704,
  4613960228475248704,
  9225083159510253634,
  4614523315800506434,
  6919803100249980994,
  4613960503286038594,
  6919811894195519554,
  4613969297231577154,
  4613960228475240514,
  4613960228475240514,
  4613969022420779074,
  4613969022420779074,
  4613960228475240514,
  4613960228475240514,
  9225083159510261824,
  4614523315800514624,
  4613960228475248704,
  4613960228475248704,
  4613969022420787264,
  4613969022420787264,
  9225083159510253634,
  4614523315800506434,
  4613960228475240514,
  4613960228475240514,
  4613969022420779074,
  4613969022420779074,
  9225083159510261824,
  4614523315800514624,
  6919811894195527744,
  4613969297231585344,
  4613969022420787264,
  4613969022420787264,
  9224520346995793984,
  4614523178395115584,
  9224520346995793984,
  4614523178395115584,
  9225083159510253634,
  4614523315800506434,
  6919811894195519554,
  4613969297231577154,
  4613969022420779074,
  4613969022420779074,
  9224520346995785794,
  4614523178395107394,
  9224520346995785794,
  4614523178395107394,
  9225083159510261824,
  4614523315800514624,
  9225083159510261824,
  4614523315800514624,
  4613969022420787264,
  4613969022420787264,
  4613960228475248704,
  4613960228475248704,
  9224520346995793984,
  4614523178395115584,
  9225083159510253634,
  4614523315800506434,
  9225083159510253634,
  4614523315800506434,
  4613969022420779074,
  4613969022420779074,
  4613960228475240514,
  4613960228475240514,
  9224520346995785794,
  4614523178395107394,
  6918677475221053504,
  4613397553366179904,
  4613397553366179904,
  6918677475221053504,
  4613406347311718464,
  6918686269166592064,
  6918677475221053504,
  4613397553366179904,
  4613406347311718464,
  6918686269166592064,
  6918677475221053504,
  4613397553366179904,
  6918677475221053504,
  4613397553366179904,
  4613406347311194304,
  6918686269166067904,
  4613406347311194304,
  6918686269166067904,
  6918677475220529344,
  4613397553365655744,
  4613406347311194304,
  6918686269166067904,
  127811914335789120,
  91238032246317120,
  127811914335789120,
  91238032246317120,
  91229100895379520,
  91229100895379520,
  91229100895379520,
  91229100895379520,
  127811914335789120,
  91238032246317120,
  127811914335780930,
  91238032246308930,
  127811914335780930,
  91238032246308930,
  91229100895371330,
  91229100895371330,
  91229100895371330,
  91229100895371330,
  127811914335780930,
  91238032246308930,
  127811914335789120,
  91238032246317120,
  91229100895379520,
  91229100895379520,
  127811914335789120,
  91238032246317120,
  91229100895379520,
  91229100895379520,
  127811914335789120,
  91238032246317120,
  127811914335789120,
  91238032246317120,
  127811914335789120,
  91238032246317120,
  127811914335789120,
  91238032246317120,
  127811914335780930,
  91238032246308930,
  91229100895371330,
  91229100895371330,
  127811914335780930,
  91238032246308930,
  127811914335780930,
  91238032246308930,
  127811914335780930,
  91238032246308930,
  127811914335780930,
  91238032246308930,
  127811914335264960,
  91238032245792960,
  91229100894855360,
  91229100894855360,
  127811914335264960,
  91238032245792960,
  127811914335264960,
  91238032245792960,
  127811914335264960,
  91238032245792960,
  127811914335264960,
  91238032245792960,
  127811914335256770,
  91238032245784770,
  91229100894847170,
  91229100894847170,
  127811914335256770,
  91238032245784770,
  127811914335256770,
  91238032245784770,
  127811914335256770,
  91238032245784770,
  127811914335256770,
  91238032245784770,
  127811914335789120,
  91238032246317120,
  127811914335789120,
  91238032246317120,
  91229100895379520,
  91229100895379520,
  91229100895379520,
  91229100895379520,
  127811914335789120,
  91238032246317120,
  127811914335264960,
  91238032245792960,
  127811914335264960,
  91238032245792960,
  91229100894855360,
  91229100894855360,
  91229100894855360,
  91229100894855360,
  127811914335264960,
  91238032245792960,
  127249239226720320,
  91800707355385920,
  127249239226720320,
  91800707355385920,
  127249101821321280,
  91237894840918080,
  127249239226720320,
  91800707355385920,
  127249101821321280,
  91237894840918080,
  127249239226720320,
  91800707355385920,
  127249239226712130,
  91800707355377730,
  127249239226712130,
  91800707355377730,
  127249101821313090,
  91237894840909890,
  127249239226712130,
  91800707355377730,
  127249101821313090,
  91237894840909890,
  127249239226712130,
  91800707355377730,
  127249101821321280,
  91237894840918080,
  127249239226720320,
  91800707355385920,
  127249239226720320,
  91800707355385920,
  127249101821313090,
  91237894840909890,
  127249239226712130,
  91800707355377730,
  127249239226712130,
  91800707355377730,
  127249239226720320,
  91800707355385920,
  127249239226720320,
  91800707355385920,
  127249101821321280,
  91237894840918080,
  127249239226720320,
  91800707355385920,
  127249101821321280,
  91237894840918080,
  127249239226712130,
  91800707355377730,
  127249239226712130,
  91800707355377730,
  127249101821313090,
  91237894840909890,
  127249239226712130,
  91800707355377730,
  127249101821313090,
  91237894840909890,
  127249239226196160,
  91800707354861760,
  127249239226196160,
  91800707354861760,
  127249101820797120,
  91237894840393920,
  127249239226196160,
  91800707354861760,
  127249101820797120,
  91237894840393920,
  127249239226187970,
  91800707354853570,
  127249239226187970,
  91800707354853570,
  127249101820788930,
  91237894840385730,
  127249239226187970,
  91800707354853570,
  127249101820788930,
  91237894840385730,
  127249101821321280,
  91237894840918080,
  127249101821321280,
  91237894840918080,
  127249239226720320,
  91800707355385920,
  127249101821321280,
  91237894840918080,
  127249239226720320,
  91800707355385920,
  127249101821313090,
  91237894840909890,
  127249101821313090,
  91237894840909890,
  127249239226712130,
  91800707355377730,
  127249101821313090,
  91237894840909890,
  127249239226712130,
  91800707355377730,
  127249239226196160,
  91800707354861760,
  127249101820797120,
  91237894840393920,
  127249239226196160,
  91800707354861760,
  127249239226196160,
  91800707354861760,
  127249239226196160,
  91800707354861760,
  127249239226187970,
  91800707354853570,
  127249101820788930,
  91237894840385730,
  127249239226187970,
  91800707354853570,
  127249239226187970,
  91800707354853570,
  127249239226187970,
  91800707354853570,
  91791913409847360,
  91229238300778560,
  91800707355385920,
  127249239226720320,
  91791913409847360,
  91229238300778560,
  91791913409847360,
  91229238300778560,
  91791913409847360,
  91229238300778560,
  91791913409839170,
  91229238300770370,
  91800707355377730,
  127249239226712130,
  91791913409839170,
  91229238300770370,
  91791913409839170,
  91229238300770370,
  91791913409839170,
  91229238300770370,
  91791913409323200,
  91229238300254400,
  91800707354861760,
  127249239226196160,
  91791913409323200,
  91229238300254400,
  91791913409323200,
  91229238300254400,
  91791913409323200,
  91229238300254400,
  91791913409315010,
  91229238300246210,
  91800707354853570,
  127249239226187970,
  91791913409315010,
  91229238300246210,
  91791913409315010,
  91229238300246210,
  91791913409315010,
  91229238300246210,
  91791913409847360,
  91229238300778560,
  91791913409847360,
  91229238300778560,
  91791913409847360,
  91229238300778560,
  91791913409323200,
  91229238300254400,
  91791913409323200,
  91229238300254400]
def test_t2_aaaa_cert_1 : List Nat := [91791913409323200,
  91229238300254400,
  91791913409847360,
  91229238300778560,
  91791913409847360,
  91229238300778560,
  91800707355385920,
  127249239226720320,
  91791913409847360,
  91229238300778560,
  91800707355385920,
  127249239226720320,
  91791913409839170,
  91229238300770370,
  91791913409839170,
  91229238300770370,
  91800707355377730,
  127249239226712130,
  91791913409839170,
  91229238300770370,
  91800707355377730,
  127249239226712130,
  91791913409323200,
  91229238300254400,
  91791913409323200,
  91229238300254400,
  91800707354861760,
  127249239226196160,
  91791913409323200,
  91229238300254400,
  91800707354861760,
  127249239226196160,
  91791913409315010,
  91229238300246210,
  91791913409315010,
  91229238300246210,
  91800707354853570,
  127249239226187970,
  91791913409315010,
  91229238300246210,
  91800707354853570,
  127249239226187970,
  91791913409847360,
  91229238300778560,
  91791913409847360,
  91229238300778560,
  91800707355385920,
  127249239226720320,
  91791913409847360,
  91229238300778560,
  91800707355385920,
  127249239226720320,
  91791913409847360,
  91229238300778560,
  91791913409323200,
  91229238300254400,
  91791913409323200,
  91229238300254400,
  91800707354861760,
  127249239226196160,
  91791913409323200,
  91229238300254400,
  91800707354861760,
  127249239226196160,
  91791913409323200,
  91229238300254400,
  91229238300778560,
  91791913409847360,
  91238032246317120,
  127811914335789120,
  91237894840918080,
  127249101821321280,
  91229238300778560,
  91791913409847360,
  91229100895379520,
  91229100895379520,
  91238032246317120,
  127811914335789120,
  91229238300770370,
  91791913409839170,
  91238032246308930,
  127811914335780930,
  91237894840909890,
  127249101821313090,
  91229238300770370,
  91791913409839170,
  91229100895371330,
  91229100895371330,
  91238032246308930,
  127811914335780930,
  91229238300254400,
  91791913409323200,
  91238032245792960,
  127811914335264960,
  91237894840393920,
  127249101820797120,
  91229238300254400,
  91791913409323200,
  91229100894855360,
  91229100894855360,
  91238032245792960,
  127811914335264960,
  91229238300246210,
  91791913409315010,
  91238032245784770,
  127811914335256770,
  91237894840385730,
  127249101820788930,
  91229238300246210,
  91791913409315010,
  91229100894847170,
  91229100894847170,
  91238032245784770,
  127811914335256770,
  91229100895379520,
  91229100895379520,
  91238032246317120,
  127811914335789120,
  91229100895379520,
  91229100895379520,
  91229100895379520,
  91229100895379520,
  91229238300778560,
  91791913409847360,
  91229100895371330,
  91229100895371330,
  91238032246308930,
  127811914335780930,
  91229100895371330,
  91229100895371330,
  91229100895371330,
  91229100895371330,
  91229238300770370,
  91791913409839170,
  91229100894855360,
  91229100894855360,
  91238032245792960,
  127811914335264960,
  91229100894855360,
  91229100894855360,
  91229100894855360,
  91229100894855360,
  91229238300254400,
  91791913409323200,
  91229100894847170,
  91229100894847170,
  91238032245784770,
  127811914335256770,
  91229100894847170,
  91229100894847170,
  91229100894847170,
  91229100894847170,
  91229238300246210,
  91791913409315010,
  91229238300778560,
  91791913409847360,
  91229238300778560,
  91791913409847360,
  91238032246317120,
  127811914335789120,
  91229100895379520,
  91229100895379520,
  91237894840918080,
  127249101821321280,
  91229238300770370,
  91791913409839170,
  91229238300770370,
  91791913409839170,
  91238032246308930,
  127811914335780930,
  91229100895371330,
  91229100895371330,
  91237894840909890,
  127249101821313090,
  91229238300254400,
  91791913409323200,
  91229238300254400,
  91791913409323200,
  91238032245792960,
  127811914335264960,
  91229100894855360,
  91229100894855360,
  91237894840393920,
  127249101820797120,
  91229238300246210,
  91791913409315010,
  91229238300246210,
  91791913409315010,
  91238032245784770,
  127811914335256770,
  91229100894847170,
  91229100894847170,
  91237894840385730,
  127249101820788930,
  91229238300778560,
  91791913409847360,
  91229100895379520,
  91229100895379520,
  91237894840918080,
  127249101821321280,
  91229238300778560,
  91791913409847360,
  91238032246317120,
  127811914335789120,
  91229100895379520,
  91229100895379520,
  91229238300770370,
  91791913409839170,
  91229100895371330,
  91229100895371330,
  91237894840909890,
  127249101821313090,
  91229238300770370,
  91791913409839170,
  91238032246308930,
  127811914335780930,
  91229100895371330,
  91229100895371330,
  91229238300254400,
  91791913409323200,
  91229100894855360,
  91229100894855360,
  91237894840393920,
  127249101820797120,
  91229238300254400,
  91791913409323200,
  91238032245792960,
  127811914335264960,
  91229100894855360,
  91229100894855360,
  91229238300246210,
  91791913409315010,
  91229100894847170,
  91229100894847170,
  91237894840385730,
  127249101820788930,
  91229238300246210,
  91791913409315010,
  91238032245784770,
  127811914335256770,
  91229100894847170,
  91229100894847170,
  811818891239939121216,
  811818891239939121216,
  516707014859752742976,
  664172907444503846976,
  516707014722347343936,
  664172907307098447936,
  516707032447643820096,
  664208936239375327296,
  516707032310238421056,
  664208936101969928256,
  811818891102533722176,
  811818891102533722176,
  811782862307662241856,
  811746851100681838656,
  516707014859752742976,
  664172907444503846976,
  811782879895553318976,
  811782879895553318976,
  516707032447643820096,
  664208936239375327296,
  811818891102533722176,
  811818891102533722176,
  811818891102533713986,
  811818891102533713986,
  811782862307662233666,
  811746851100681830466,
  516707014859752734786,
  664172907444503838786,
  811782879895553310786,
  811782879895553310786,
  516707032447643811906,
  664208936239375319106,
  811818891102533713986,
  811818891102533713986,
  811818891239939121216,
  811818891239939121216,
  811782862445067640896,
  811746851238087237696,
  811782862307662241856,
  811746851100681838656,
  811782880032958718016,
  811782880032958718016,
  811782879895553318976,
  811782879895553318976,
  664208909857538711616,
  369133079860114890816,
  516670986064881262656,
  369097059859188949056,
  516670985927475863616,
  369097059721783550016,
  369097042271297871936,
  369097042271297871936,
  369097042133892472896,
  369097042133892472896,
  369097042271297871936,
  369097042271297871936,
  664208909857538187456,
  369133079860114366656,
  516670986064880738496,
  369097059859188424896,
  516670985927475339456,
  369097059721783025856,
  369097042271297347776,
  369097042271297347776,
  369097042133891948736,
  369097042133891948736,
  369097042271297347776,
  369097042271297347776,
  664208909720133312576,
  369133079722709491776,
  516670986064881262656,
  369097059859188949056,
  664172889719207370816,
  369133070928763953216,
  664172889719207370816,
  369133070928763953216,
  369097042271297871936,
  369097042271297871936,
  664208909720133304386,
  369133079722709483586,
  516670986064881254466,
  369097059859188940866,
  664172889719207362626,
  369133070928763945026,
  664172889719207362626,
  369133070928763945026,
  369097042271297863746,
  369097042271297863746,
  664208909720132788416,
  369133079722708967616,
  516670986064880738496,
  369097059859188424896,
  664172889719206846656,
  369133070928763429056,
  664172889719206846656,
  369133070928763429056,
  369097042271297347776,
  369097042271297347776,
  664208909720132780226,
  369133079722708959426,
  516670986064880730306,
  369097059859188416706,
  664172889719206838466,
  369133070928763420866,
  664172889719206838466,
  369133070928763420866,
  369097042271297339586,
  369097042271297339586,
  664208909857538711616,
  369133079860114890816,
  664172889856612769856,
  369133071066169352256,
  664172889719207370816,
  369133070928763953216,
  664208909857538187456,
  369133079860114366656,
  664172889856612245696,
  369133071066168828096,
  664172889719206846656,
  369133070928763429056,
  516598946063029379136,
  369061031064317468736,
  369061031064317468736,
  516598946063029379136,
  369061030926912069696,
  516598945925623980096,
  369061031064317468736,
  516598946063029379136,
  369061031064317468736,
  516598946063029379136,
  516598945925623980096,
  369061030926912069696,
  369061031064317468736,
  516598946063029379136,
  516598945925623971906,
  369061030926912061506,
  369061031064317460546,
  516598946063029370946,
  516598945925623971906,
  369061030926912061506,
  516598945925623971906,
  369061030926912061506,
  90111994866966592,
  126123201847369792,
  90111994866966592,
  126123201847369792,
  90103200921428032,
  90103200921428032,
  90111857461567552,
  126123064441970752,
  90103063516028992,
  90103063516028992,
  90111994866966592,
  126123201847369792,
  90111994866958402,
  126123201847361602,
  90111994866958402,
  126123201847361602]
def test_t2_aaaa_cert_2 : List Nat := [90103200921419842,
  90103200921419842,
  90111857461559362,
  126123064441962562,
  90103063516020802,
  90103063516020802,
  90111994866958402,
  126123201847361602,
  90111994833403972,
  126123201780269122,
  90111994833403972,
  126123201780269122,
  90103200887865412,
  90103200854327362,
  90111994833403972,
  126123201780269122,
  90111994833403972,
  126123201780269122,
  90103200887865412,
  90103200854327362,
  126140787591487552,
  126140787591487552,
  126140787591487552,
  126140787591487552,
  126140787591487552,
  126140787591487552,
  126140650186088512,
  126140650186088512,
  126140650186088512,
  126140650186088512,
  126140787591487552,
  126140787591487552,
  126140787591479362,
  126140787591479362,
  126140787591479362,
  126140787591479362,
  126140787591479362,
  126140787591479362,
  126140650186080322,
  126140650186080322,
  126140650186080322,
  126140650186080322,
  126140787591479362,
  126140787591479362,
  126140787557924932,
  126140787524386882,
  126140787557924932,
  126140787524386882,
  126140787557924932,
  126140787524386882,
  90111990539485252,
  126114405687771202,
  90111990539485252,
  126114405687771202,
  126140787557924932,
  126140787524386882,
  90111990539485252,
  126114405687771202,
  126140787557924932,
  126140787524386882,
  126140787557924932,
  126140787524386882,
  90111990539485252,
  126114405687771202,
  126140787591487552,
  126140787591487552,
  126140787591487552,
  126140787591487552,
  126140787591487552,
  126140787591487552,
  126140650186088512,
  126140650186088512,
  126140650186088512,
  126140650186088512,
  126140787591487552,
  126140787591487552,
  126140787591479362,
  126140787591479362,
  126140787591479362,
  126140787591479362,
  126140787591479362,
  126140787591479362,
  126140650186080322,
  126140650186080322,
  126140650186080322,
  126140650186080322,
  126140787591479362,
  126140787591479362,
  126140787557924932,
  126140787524386882,
  126140787557924932,
  126140787524386882,
  126140787557924932,
  126140787524386882,
  90111990539485252,
  126114405687771202,
  90111990539485252,
  126114405687771202,
  126140787557924932,
  126140787524386882,
  90111990539485252,
  126114405687771202,
  126140787557924932,
  126140787524386882,
  126140787557924932,
  126140787524386882,
  90111990539485252,
  126114405687771202,
  126140785444004032,
  126140787590439232,
  126140785444004032,
  126140787590439232,
  126140785444004032,
  126140787590439232,
  126140648038604992,
  126140650185040192,
  126140648038604992,
  126140650185040192,
  126140785444004032,
  126140787590439232,
  126140785443995842,
  126140787590431042,
  126140785443995842,
  126140787590431042,
  126140785443995842,
  126140787590431042,
  126140648038596802,
  126140650185032002,
  126140648038596802,
  126140650185032002,
  126140785443995842,
  126140787590431042,
  126140785410441412,
  126140787523338562,
  126140785410441412,
  126140787523338562,
  126140785410441412,
  126140787523338562,
  90111988392001732,
  126114405686722882,
  90111988392001732,
  126114405686722882,
  126140785410441412,
  126140787523338562,
  90111988392001732,
  126114405686722882,
  126140785410441412,
  126140787523338562,
  126140785410441412,
  126140787523338562,
  90111988392001732,
  126114405686722882,
  126140785444004032,
  126140787590439232,
  126140785444004032,
  126140787590439232,
  126140785444004032,
  126140787590439232,
  126140648038604992,
  126140650185040192,
  126140648038604992,
  126140650185040192,
  126140785444004032,
  126140787590439232,
  126140785443995842,
  126140787590431042,
  126140785443995842,
  126140787590431042,
  126140785443995842,
  126140787590431042,
  126140648038596802,
  126140650185032002,
  126140648038596802,
  126140650185032002,
  126140785443995842,
  126140787590431042,
  126140785410441412,
  126140787523338562,
  126140785410441412,
  126140787523338562,
  126140785410441412,
  126140787523338562,
  90111988392001732,
  126114405686722882,
  90111988392001732,
  126114405686722882,
  126140785410441412,
  126140787523338562,
  90111988392001732,
  126114405686722882,
  126140785410441412,
  126140787523338562,
  126140785410441412,
  126140787523338562,
  90111988392001732,
  126114405686722882,
  162143194184425792,
  162143194184425792,
  162143194184425792,
  162143194184425792,
  162143194183901632,
  162134400238887232,
  162143056779026752,
  162143056779026752,
  162143056778502592,
  162134262833488192,
  162143194184417602,
  162143194184417602,
  162143194184417602,
  162143194184417602,
  162143194183893442,
  162134400238879042,
  162143056779018562,
  162143056779018562,
  162143056778494402,
  162134262833480002,
  162143194150863172,
  162143194117325122,
  162143194150863172,
  162143194117325122,
  162143194150339012,
  162134400171786562,
  126114397132423492,
  54083191339499842,
  126114397131375172,
  18054396468019522,
  162143194150863172,
  162143194117325122,
  162143194150863172,
  162143194117325122,
  126114397132423492,
  54083191339499842,
  126114397131375172,
  18054396468019522,
  162143194150863172,
  162143194117325122,
  162143194150339012,
  162134400171786562,
  162143194150863172,
  162143194117325122,
  1157241458401344,
  1719916567470144,
  1157241458401344,
  1719916567470144,
  1148447512862784,
  1711122621931584,
  1157104053002304,
  1157104053002304,
  1148310107463744,
  1148310107463744,
  1157241458401344,
  1719916567470144,
  1720191344721984,
  1720191344721984,
  1720191344721984,
  1720191344721984,
  1711397399183424,
  1711397399183424,
  1720191344721984,
  1720191344721984,
  1711397399183424,
  1711397399183424,
  1720191344721984,
  1720191344721984,
  1720191344721984,
  1720191344721984,
  1720191344721984,
  1720191344721984,
  1711397399183424,
  1711397399183424,
  1720191344721984,
  1720191344721984,
  1711397399183424,
  1711397399183424,
  1720191344721984,
  1720191344721984,
  1720191311167554,
  1720191344705604,
  1720191311167554,
  1720191344705604,
  1711397365628994,
  1711397399167044,
  1720191311167554,
  1720191344705604,
  1711397365628994,
  1711397399167044,
  1720191311167554,
  1720191344705604,
  1720191311167554,
  1720191344705604,
  1720191311167554,
  1720191344705604,
  1711397365628994,
  1711397399167044,
  1720191311167554,
  1720191344705604,
  1711397365628994,
  1711397399167044,
  1720191311167554,
  1720191344705604,
  2282728947736644,
  2282728947736644,
  2282728947736644,
  2282728947736644,
  2273935002198084,
  2273935002198084,
  2282728947728454,
  2282591542337604,
  2273935002189894,
  2273797596799044,
  1157241457877184,
  1719916566945984,
  1157241457877184,
  1719916566945984,
  1148447512338624,
  1711122621407424,
  1157104052478144,
  1157104052478144,
  1148310106939584,
  1148310106939584,
  1157241457877184,
  1719916566945984,
  1720191344197824,
  1720191344197824,
  1720191344197824,
  1720191344197824,
  1711397398659264,
  1711397398659264,
  1720191344197824,
  1720191344197824,
  1711397398659264,
  1711397398659264,
  1720191344197824,
  1720191344197824,
  1720191344197824,
  1720191344197824,
  1720191344197824,
  1720191344197824,
  1711397398659264,
  1711397398659264,
  1720191344197824,
  1720191344197824,
  1711397398659264,
  1711397398659264,
  1720191344197824,
  1720191344197824,
  1720191310643394,
  1720191344181444,
  1720191310643394,
  1720191344181444,
  1711397365104834,
  1711397398642884,
  1720191310643394,
  1720191344181444,
  1711397365104834,
  1711397398642884,
  1720191310643394,
  1720191344181444,
  1720191310643394,
  1720191344181444,
  1720191310643394,
  1720191344181444,
  1711397365104834,
  1711397398642884,
  1720191310643394,
  1720191344181444,
  1711397365104834,
  1711397398642884,
  1720191310643394,
  1720191344181444,
  2282728947212484,
  2282728947212484,
  2282728947212484,
  2282728947212484,
  2273935001673924,
  2273935001673924,
  2282728947204294,
  2282591541813444,
  2273935001665734,
  2273797596274884,
  1157239310393664,
  1719912273027264,
  1157239310393664,
  1719912273027264,
  1157101904994624,
  1157099758559424,
  1720189196714304,
  1720187050279104,
  1720189196714304,
  1720187050279104,
  1720189196714304,
  1720187050279104,
  1157239243301184,
  1719774834081984,
  1157239243301184,
  1719774834081984,
  1720189196714304,
  1720187050279104,
  1720189196714304,
  1720187050279104]
def test_t2_aaaa_cert_3 : List Nat := [1157239243301184,
  1719774834081984,
  1720189196714304,
  1720187050279104,
  1157239243301184,
  1719774834081984,
  1720189163159874,
  1720187050262724,
  1720189163159874,
  1720187050262724,
  1720189163159874,
  1720187050262724,
  1157239209746754,
  1719774834065604,
  1157239209746754,
  1719774834065604,
  1720189163159874,
  1720187050262724,
  1720189163159874,
  1720187050262724,
  1157239209746754,
  1719774834065604,
  1720189163159874,
  1720187050262724,
  1157239209746754,
  1719774834065604,
  2282726799728964,
  2282724653293764,
  2282726799728964,
  2282724653293764,
  1719776846315844,
  594287109890244,
  2282726799720774,
  2282587247894724,
  1719776846299464,
  31337190023364,
  2282726799728964,
  2282724653293764,
  1157239310393664,
  1719912273027264,
  1157239310393664,
  1719912273027264,
  1157101904994624,
  1157099758559424,
  1720189196714304,
  1720187050279104,
  1720189196714304,
  1720187050279104,
  1157239243301184,
  1719774834081984,
  1720189196714304,
  1720187050279104,
  1157239243301184,
  1719774834081984,
  1720189196714304,
  1720187050279104,
  1157239243301184,
  1719774834081984,
  1720189196714304,
  1720187050279104,
  1720189196714304,
  1720187050279104,
  1157239243301184,
  1719774834081984,
  1720189163159874,
  1720187050262724,
  1720189163159874,
  1720187050262724,
  1157239209746754,
  1719774834065604,
  1720189163159874,
  1720187050262724,
  1157239209746754,
  1719774834065604,
  1720189163159874,
  1720187050262724,
  1157239209746754,
  1719774834065604,
  1720189163159874,
  1720187050262724,
  1720189163159874,
  1720187050262724,
  1157239209746754,
  1719774834065604,
  2282726799728964,
  2282724653293764,
  1719776846315844,
  594287109890244,
  2282726799728964,
  2282724653293764,
  1719776846299464,
  31337190023364,
  2282726799720774,
  2282587247894724,
  2282726799728964,
  2282724653293764,
  11531489256015667264,
  11531489256015667264,
  11531489256015659074,
  11531489256015659074,
  6920366324980654144,
  9225083571726458944,
  6920366324980645954,
  9225083571726450754,
  6920375118926192704,
  9225092365671997504,
  6920375118926184514,
  9225092365671989314,
  6920366050169856064,
  9224520621806592064,
  6920366050169847874,
  9224520621806583874,
  6920374844115394624,
  9224529415752130624,
  6920374844115386434,
  9224529415752122434,
  11531489256015667264,
  11531489256015667264,
  11531489256015659074,
  11531489256015659074,
  11530926443501199424,
  11530926443501199424,
  11530926443501191234,
  11530926443501191234,
  6920375118926192704,
  9225092365671997504,
  6920375118926184514,
  9225092365671989314,
  11530926168690401344,
  11530363493581332544,
  11530926168690393154,
  11530363493581324354,
  6920374844115394624,
  9224529415752130624,
  6920374844115386434,
  9224529415752122434,
  11531489256015667264,
  11531489256015667264,
  11531489256015659074,
  11531489256015659074,
  9225083159510261824,
  4614523315800514624,
  9225083159510253634,
  4614523315800506434,
  4613960228475248704,
  4613960228475248704,
  4613960228475240514,
  4613960228475240514,
  4613969022420787264,
  4613969022420787264,
  4613969022420779074,
  4613969022420779074,
  6919803100249989184,
  4613960503286046784,
  6919803100249980994,
  4613960503286038594,
  6919811894195527744,
  4613969297231585344,
  6919811894195519554,
  4613969297231577154,
  4613960228475248704,
  4613960228475248704,
  4613960228475240514,
  4613960228475240514,
  9225083159510261824,
  4614523315800514624,
  9225083159510253634,
  4614523315800506434,
  4613960228475248704,
  4613960228475248704,
  4613960228475240514,
  4613960228475240514,
  4613969022420787264,
  4613969022420787264,
  4613969022420779074,
  4613969022420779074,
  9225083159510261824,
  4614523315800514624,
  9225083159510253634,
  4614523315800506434,
  9224520346995793984,
  4614523178395115584,
  9224520346995785794,
  4614523178395107394,
  4613969022420787264,
  4613969022420787264,
  4613969022420779074,
  4613969022420779074,
  6919811894195527744,
  4613969297231585344,
  6919811894195519554,
  4613969297231577154,
  9224520346995793984,
  4614523178395115584,
  9224520346995785794,
  4614523178395107394,
  9225083159510261824,
  4614523315800514624,
  9225083159510253634,
  4614523315800506434,
  9224520346995793984,
  4614523178395115584,
  9224520346995785794,
  4614523178395107394,
  4613969022420787264,
  4613969022420787264,
  4613969022420779074,
  4613969022420779074,
  9225083159510261824,
  4614523315800514624,
  9225083159510253634,
  4614523315800506434,
  4613960228475248704,
  4613960228475248704,
  4613960228475240514,
  4613960228475240514,
  6918677475221053504,
  4613397553366179904,
  4613397553366179904,
  6918677475221053504,
  4613406347311718464,
  6918686269166592064,
  6918677475221053504,
  4613397553366179904,
  4613406347311194304,
  6918686269166067904,
  4613406347311718464,
  6918686269166592064,
  4613406347311194304,
  6918686269166067904,
  6918677475221053504,
  4613397553366179904,
  6918677475220529344,
  4613397553365655744,
  6918677475221053504,
  4613397553366179904,
  4613406347311194304,
  6918686269166067904,
  127811914335789120,
  91238032246317120,
  127811914335780930,
  91238032246308930,
  91229100895379520,
  91229100895379520,
  91229100895371330,
  91229100895371330,
  127811914335789120,
  91238032246317120,
  127811914335780930,
  91238032246308930,
  127811914335789120,
  91238032246317120,
  127811914335780930,
  91238032246308930,
  91229100895379520,
  91229100895379520,
  91229100895371330,
  91229100895371330,
  127811914335789120,
  91238032246317120,
  91229100895379520,
  91229100895379520,
  127811914335789120,
  91238032246317120,
  127811914335780930,
  91238032246308930,
  127811914335264960,
  91238032245792960,
  127811914335256770,
  91238032245784770,
  127811914335789120,
  91238032246317120,
  127811914335780930,
  91238032246308930,
  127811914335264960,
  91238032245792960,
  127811914335256770,
  91238032245784770,
  91229100895379520,
  91229100895379520,
  91229100895371330,
  91229100895371330,
  91229100894855360,
  91229100894855360,
  91229100894847170,
  91229100894847170,
  127811914335789120,
  91238032246317120,
  127811914335780930,
  91238032246308930,
  127811914335264960,
  91238032245792960,
  127811914335256770,
  91238032245784770,
  127811914335789120,
  91238032246317120,
  127811914335780930,
  91238032246308930,
  127811914335264960,
  91238032245792960,
  127811914335256770,
  91238032245784770,
  127811914335789120,
  91238032246317120,
  127811914335780930,
  91238032246308930,
  127811914335264960,
  91238032245792960,
  127811914335256770,
  91238032245784770,
  127811914335789120,
  91238032246317120,
  127811914335264960,
  91238032245792960,
  127811914335789120,
  91238032246317120,
  127811914335264960,
  91238032245792960,
  91229100895379520,
  91229100895379520,
  91229100894855360,
  91229100894855360,
  127811914335789120,
  91238032246317120,
  127811914335264960,
  91238032245792960,
  91229100895379520,
  91229100895379520,
  91229100894855360,
  91229100894855360,
  127249239226720320,
  91800707355385920,
  127249239226712130,
  91800707355377730,
  127249239226720320,
  91800707355385920,
  127249239226712130,
  91800707355377730,
  127249239226720320,
  91800707355385920,
  127249239226712130,
  91800707355377730,
  127249101821321280,
  91237894840918080,
  127249101821313090,
  91237894840909890,
  127249101821321280,
  91237894840918080,
  127249101821313090,
  91237894840909890,
  127249239226720320,
  91800707355385920,
  127249239226712130,
  91800707355377730,
  127249101821321280,
  91237894840918080,
  127249101821313090,
  91237894840909890,
  127249239226720320,
  91800707355385920,
  127249239226712130,
  91800707355377730,
  127249239226720320,
  91800707355385920,
  127249239226712130,
  91800707355377730,
  127249239226720320,
  91800707355385920,
  127249239226712130,
  91800707355377730,
  127249239226196160,
  91800707354861760,
  127249239226187970,
  91800707354853570,
  127249239226720320,
  91800707355385920,
  127249239226712130,
  91800707355377730,
  127249239226196160,
  91800707354861760,
  127249239226187970,
  91800707354853570,
  127249239226720320,
  91800707355385920,
  127249239226712130,
  91800707355377730,
  127249239226196160,
  91800707354861760,
  127249239226187970,
  91800707354853570,
  127249101821321280,
  91237894840918080,
  127249101821313090,
  91237894840909890,
  127249101820797120,
  91237894840393920,
  127249101820788930,
  91237894840385730,
  127249101821321280,
  91237894840918080]
def test_t2_aaaa_cert_4 : List Nat := [127249101821313090,
  91237894840909890,
  127249101820797120,
  91237894840393920,
  127249101820788930,
  91237894840385730,
  127249101821321280,
  91237894840918080,
  127249101821313090,
  91237894840909890,
  127249239226196160,
  91800707354861760,
  127249239226187970,
  91800707354853570,
  127249239226720320,
  91800707355385920,
  127249239226712130,
  91800707355377730,
  127249239226196160,
  91800707354861760,
  127249239226187970,
  91800707354853570,
  127249239226720320,
  91800707355385920,
  127249239226712130,
  91800707355377730,
  127249239226196160,
  91800707354861760,
  127249239226187970,
  91800707354853570,
  127249101821321280,
  91237894840918080,
  127249101821313090,
  91237894840909890,
  127249101820797120,
  91237894840393920,
  127249101820788930,
  91237894840385730,
  127249101821321280,
  91237894840918080,
  127249101821313090,
  91237894840909890,
  127249239226196160,
  91800707354861760,
  127249239226187970,
  91800707354853570,
  91791913409847360,
  91229238300778560,
  91791913409839170,
  91229238300770370,
  91791913409323200,
  91229238300254400,
  91791913409315010,
  91229238300246210,
  91791913409847360,
  91229238300778560,
  91791913409839170,
  91229238300770370,
  91791913409323200,
  91229238300254400,
  91791913409315010,
  91229238300246210,
  91791913409847360,
  91229238300778560,
  91791913409839170,
  91229238300770370,
  91791913409323200,
  91229238300254400,
  91791913409315010,
  91229238300246210,
  91800707355385920,
  127249239226720320,
  91800707355377730,
  127249239226712130,
  91800707354861760,
  127249239226196160,
  91800707354853570,
  127249239226187970,
  91791913409847360,
  91229238300778560,
  91791913409839170,
  91229238300770370,
  91791913409323200,
  91229238300254400,
  91791913409315010,
  91229238300246210,
  91791913409847360,
  91229238300778560,
  91791913409323200,
  91229238300254400,
  91791913409847360,
  91229238300778560,
  91791913409323200,
  91229238300254400,
  91791913409847360,
  91229238300778560,
  91791913409323200,
  91229238300254400,
  91791913409847360,
  91229238300778560,
  91791913409839170,
  91229238300770370,
  91791913409323200,
  91229238300254400,
  91791913409315010,
  91229238300246210,
  91791913409847360,
  91229238300778560,
  91791913409839170,
  91229238300770370,
  91791913409323200,
  91229238300254400,
  91791913409315010,
  91229238300246210,
  91800707355385920,
  127249239226720320,
  91800707355377730,
  127249239226712130,
  91800707354861760,
  127249239226196160,
  91800707354853570,
  127249239226187970,
  91791913409847360,
  91229238300778560,
  91791913409839170,
  91229238300770370,
  91791913409323200,
  91229238300254400,
  91791913409315010,
  91229238300246210,
  91800707355385920,
  127249239226720320,
  91800707355377730,
  127249239226712130,
  91800707354861760,
  127249239226196160,
  91800707354853570,
  127249239226187970,
  91791913409847360,
  91229238300778560,
  91791913409323200,
  91229238300254400,
  91791913409847360,
  91229238300778560,
  91791913409323200,
  91229238300254400,
  91800707355385920,
  127249239226720320,
  91800707354861760,
  127249239226196160,
  91791913409847360,
  91229238300778560,
  91791913409323200,
  91229238300254400,
  91800707355385920,
  127249239226720320,
  91800707354861760,
  127249239226196160,
  91791913409847360,
  91229238300778560,
  91791913409323200,
  91229238300254400,
  91229238300778560,
  91791913409847360,
  91229238300770370,
  91791913409839170,
  91229238300254400,
  91791913409323200,
  91229238300246210,
  91791913409315010,
  91229238300778560,
  91791913409847360,
  91229238300770370,
  91791913409839170,
  91229238300254400,
  91791913409323200,
  91229238300246210,
  91791913409315010,
  91238032246317120,
  127811914335789120,
  91238032246308930,
  127811914335780930,
  91238032245792960,
  127811914335264960,
  91238032245784770,
  127811914335256770,
  91229100895379520,
  91229100895379520,
  91229100895371330,
  91229100895371330,
  91229100894855360,
  91229100894855360,
  91229100894847170,
  91229100894847170,
  91237894840918080,
  127249101821321280,
  91237894840909890,
  127249101821313090,
  91237894840393920,
  127249101820797120,
  91237894840385730,
  127249101820788930,
  91238032246317120,
  127811914335789120,
  91238032246308930,
  127811914335780930,
  91238032245792960,
  127811914335264960,
  91238032245784770,
  127811914335256770,
  91229100895379520,
  91229100895379520,
  91229100895371330,
  91229100895371330,
  91229100894855360,
  91229100894855360,
  91229100894847170,
  91229100894847170,
  91229238300778560,
  91791913409847360,
  91229238300770370,
  91791913409839170,
  91229238300254400,
  91791913409323200,
  91229238300246210,
  91791913409315010,
  91238032246317120,
  127811914335789120,
  91238032246308930,
  127811914335780930,
  91238032245792960,
  127811914335264960,
  91238032245784770,
  127811914335256770,
  91229100895379520,
  91229100895379520,
  91229100895371330,
  91229100895371330,
  91229100894855360,
  91229100894855360,
  91229100894847170,
  91229100894847170,
  91229100895379520,
  91229100895379520,
  91229100895371330,
  91229100895371330,
  91229100894855360,
  91229100894855360,
  91229100894847170,
  91229100894847170,
  91229238300778560,
  91791913409847360,
  91229238300770370,
  91791913409839170,
  91229238300254400,
  91791913409323200,
  91229238300246210,
  91791913409315010,
  91229238300778560,
  91791913409847360,
  91229238300770370,
  91791913409839170,
  91229238300254400,
  91791913409323200,
  91229238300246210,
  91791913409315010,
  91238032246317120,
  127811914335789120,
  91238032246308930,
  127811914335780930,
  91238032245792960,
  127811914335264960,
  91238032245784770,
  127811914335256770,
  91229100895379520,
  91229100895379520,
  91229100895371330,
  91229100895371330,
  91229100894855360,
  91229100894855360,
  91229100894847170,
  91229100894847170,
  91237894840918080,
  127249101821321280,
  91237894840909890,
  127249101821313090,
  91237894840393920,
  127249101820797120,
  91237894840385730,
  127249101820788930,
  91229238300778560,
  91791913409847360,
  91229238300770370,
  91791913409839170,
  91229238300254400,
  91791913409323200,
  91229238300246210,
  91791913409315010,
  91229238300778560,
  91791913409847360,
  91229238300770370,
  91791913409839170,
  91229238300254400,
  91791913409323200,
  91229238300246210,
  91791913409315010,
  91238032246317120,
  127811914335789120,
  91238032246308930,
  127811914335780930,
  91238032245792960,
  127811914335264960,
  91238032245784770,
  127811914335256770,
  91229100895379520,
  91229100895379520,
  91229100895371330,
  91229100895371330,
  91229100894855360,
  91229100894855360,
  91229100894847170,
  91229100894847170,
  91237894840918080,
  127249101821321280,
  91237894840909890,
  127249101821313090,
  91237894840393920,
  127249101820797120,
  91237894840385730,
  127249101820788930,
  91229100895379520,
  91229100895379520,
  91229100895371330,
  91229100895371330,
  91229100894855360,
  91229100894855360,
  91229100894847170,
  91229100894847170,
  811818891239939121216,
  811818891239939121216,
  516707014859752742976,
  664172907444503846976,
  516707032447643820096,
  664208936239375327296,
  516707014722347343936,
  664172907307098447936,
  516707032310238421056,
  664208936101969928256,
  811818891102533722176,
  811818891102533722176,
  811818891102533713986,
  811818891102533713986,
  516707014859752742976,
  664172907444503846976,
  516707014859752734786,
  664172907444503838786,
  516707032447643820096,
  664208936239375327296,
  516707032447643811906,
  664208936239375319106,
  811782862307662241856,
  811746851100681838656,
  811782862307662233666,
  811746851100681830466,
  811782879895553318976,
  811782879895553318976,
  811782879895553310786,
  811782879895553310786,
  811818891102533722176,
  811818891102533722176,
  811818891102533713986,
  811818891102533713986,
  811818891239939121216,
  811818891239939121216,
  811782862445067640896,
  811746851238087237696,
  811782880032958718016,
  811782880032958718016,
  811782862307662241856,
  811746851100681838656,
  811782879895553318976,
  811782879895553318976,
  664208909857538711616,
  369133079860114890816,
  664208909857538187456,
  369133079860114366656,
  516670986064881262656,
  369097059859188949056,
  516670986064880738496,
  369097059859188424896,
  369097042271297871936,
  369097042271297871936,
  369097042271297347776,
  369097042271297347776,
  516670985927475863616,
  369097059721783550016,
  516670985927475339456,
  369097059721783025856,
  369097042133892472896,
  369097042133892472896]
def test_t2_aaaa_cert_5 : List Nat := [369097042133891948736,
  369097042133891948736,
  369097042271297871936,
  369097042271297871936,
  369097042271297347776,
  369097042271297347776,
  664208909720133312576,
  369133079722709491776,
  664208909720133304386,
  369133079722709483586,
  664208909720132788416,
  369133079722708967616,
  664208909720132780226,
  369133079722708959426,
  516670986064881262656,
  369097059859188949056,
  516670986064881254466,
  369097059859188940866,
  516670986064880738496,
  369097059859188424896,
  516670986064880730306,
  369097059859188416706,
  369097042271297871936,
  369097042271297871936,
  369097042271297863746,
  369097042271297863746,
  369097042271297347776,
  369097042271297347776,
  369097042271297339586,
  369097042271297339586,
  664172889719207370816,
  369133070928763953216,
  664172889719207362626,
  369133070928763945026,
  664172889719206846656,
  369133070928763429056,
  664172889719206838466,
  369133070928763420866,
  664172889719207370816,
  369133070928763953216,
  664172889719207362626,
  369133070928763945026,
  664172889719206846656,
  369133070928763429056,
  664172889719206838466,
  369133070928763420866,
  664208909857538711616,
  369133079860114890816,
  664208909857538187456,
  369133079860114366656,
  664172889856612769856,
  369133071066169352256,
  664172889856612245696,
  369133071066168828096,
  664172889719207370816,
  369133070928763953216,
  664172889719206846656,
  369133070928763429056,
  516598946063029379136,
  369061031064317468736,
  369061031064317468736,
  516598946063029379136,
  369061030926912069696,
  516598945925623980096,
  369061031064317468736,
  516598946063029379136,
  516598945925623971906,
  369061030926912061506,
  369061031064317468736,
  516598946063029379136,
  369061031064317460546,
  516598946063029370946,
  516598945925623980096,
  369061030926912069696,
  516598945925623971906,
  369061030926912061506,
  369061031064317468736,
  516598946063029379136,
  516598945925623971906,
  369061030926912061506,
  2274209947197504,
  2274209947197504,
  2274209947197504,
  2274209947197504,
  1711397432729664,
  1711397432729664,
  2274072541798464,
  2274072541798464,
  1711122621931584,
  1148447512862784,
  2274209947197504,
  2274209947197504,
  1711122621931584,
  1148447512862784,
  1711122621923394,
  1148447512854594,
  1711122621931584,
  1148447512862784,
  1711122621923394,
  1148447512854594,
  1148310107463744,
  1148310107463744,
  1148310107455554,
  1148310107455554,
  1711122621931584,
  1148447512862784,
  1711122621923394,
  1148447512854594,
  1148310107463744,
  1148310107463744,
  1148310107455554,
  1148310107455554,
  1148447512862784,
  1711122621931584,
  1148447512862784,
  1711122621931584,
  1148310107463744,
  1148310107463744,
  2274209947197504,
  2274209947197504,
  2274209946673344,
  2274209946673344,
  2274209947197504,
  2274209947197504,
  2274209946673344,
  2274209946673344,
  2283003892736064,
  2283003892736064,
  2283003892211904,
  2283003892211904,
  2274072541798464,
  2274072541798464,
  2274072541274304,
  2274072541274304,
  2282866487337024,
  2282866487337024,
  2282866486812864,
  2282866486812864,
  1711122621931584,
  1148447512862784,
  1711122621923394,
  1148447512854594,
  1711122621407424,
  1148447512338624,
  1711122621399234,
  1148447512330434,
  1711122621931584,
  1148447512862784,
  1711122621923394,
  1148447512854594,
  1711122621407424,
  1148447512338624,
  1711122621399234,
  1148447512330434,
  1719916567470144,
  1157241458401344,
  1719916567461954,
  1157241458393154,
  1719916566945984,
  1157241457877184,
  1719916566937794,
  1157241457868994,
  1711122621931584,
  1148447512862784,
  1711122621923394,
  1148447512854594,
  1711122621407424,
  1148447512338624,
  1711122621399234,
  1148447512330434,
  1719916567470144,
  1157241458401344,
  1719916567461954,
  1157241458393154,
  1719916566945984,
  1157241457877184,
  1719916566937794,
  1157241457868994,
  1711122621931584,
  1148447512862784,
  1711122621923394,
  1148447512854594,
  1711122621407424,
  1148447512338624,
  1711122621399234,
  1148447512330434,
  1148447512862784,
  1711122621931584,
  1148447512338624,
  1711122621407424,
  1148447512862784,
  1711122621931584,
  1148447512338624,
  1711122621407424,
  1157241458401344,
  1719916567470144,
  1157241457877184,
  1719916566945984,
  1148310107463744,
  1148310107463744,
  1148310106939584,
  1148310106939584,
  1157104053002304,
  1157104053002304,
  1157104052478144,
  1157104052478144,
  1148447512862784,
  1711122621931584,
  1148447512338624,
  1711122621407424,
  162151859313451072,
  162151859313451072,
  126123064441970752,
  90111857461567552,
  126140652333047872,
  126140652333047872,
  162151859313451072,
  162151859313451072,
  162160653258989632,
  162160653258989632,
  162151859313451072,
  162151859313451072,
  162151996718850112,
  162151996718850112,
  162151996718841922,
  162151996718841922,
  162151996718850112,
  162151996718850112,
  162151996718841922,
  162151996718841922,
  162160790664388672,
  162160790664388672,
  162160790664380482,
  162160790664380482,
  162151859313451072,
  162151859313451072,
  162151859313442882,
  162151859313442882,
  162160653258989632,
  162160653258989632,
  162160653258981442,
  162160653258981442,
  126123064441970752,
  90111857461567552,
  126123064441446592,
  90111857461043392,
  90103063516028992,
  90103063516028992,
  90103063515504832,
  90103063515504832,
  126123064441970752,
  90111857461567552,
  126123064441446592,
  90111857461043392,
  126123064441970752,
  90111857461567552,
  126123064441446592,
  90111857461043392,
  90103063516028992,
  90103063516028992,
  90103063515504832,
  90103063515504832,
  126123201847369792,
  90111994866966592,
  126123201847361602,
  90111994866958402,
  126123201846845632,
  90111994866442432,
  126123201846837442,
  90111994866434242,
  126123201847369792,
  90111994866966592,
  126123201847361602,
  90111994866958402,
  126123201846845632,
  90111994866442432,
  126123201846837442,
  90111994866434242,
  126123201847369792,
  90111994866966592,
  126123201847361602,
  90111994866958402,
  126123201846845632,
  90111994866442432,
  126123201846837442,
  90111994866434242,
  126123064441970752,
  90111857461567552,
  126123064441962562,
  90111857461559362,
  126123064441446592,
  90111857461043392,
  126123064441438402,
  90111857461035202,
  126123064441970752,
  90111857461567552,
  126123064441962562,
  90111857461559362,
  126123064441446592,
  90111857461043392,
  126123064441438402,
  90111857461035202,
  126123201847369792,
  90111994866966592,
  126123201847361602,
  90111994866958402,
  126123201846845632,
  90111994866442432,
  126123201846837442,
  90111994866434242,
  90103063516028992,
  90103063516028992,
  90103063516028992,
  90103063516028992,
  90111857461567552,
  126123064441970752,
  90103200921428032,
  90103200921428032,
  90103200921419842,
  90103200921419842,
  90103200921428032,
  90103200921428032,
  90103200921419842,
  90103200921419842,
  90111994866966592,
  126123201847369792,
  90111994866958402,
  126123201847361602,
  90103063516028992,
  90103063516028992,
  90103063516020802,
  90103063516020802,
  90111857461567552,
  126123064441970752,
  90111857461559362,
  126123064441962562,
  90103200921428032,
  90103200921428032,
  90103200921419842,
  90103200921419842]

/-- Check test_t2_aaaa. C83 -/
theorem test_t2_aaaa : isZeroSpin kinds [aᵥ, bᵥ, iₒ, jₒ] 4 [false, false, false, false]
    (residQf1 ++ (Prog.scale (1/4) (Prog.cap 4 71 (Prog.outs [4, 5, 0, 1, 2, 3, 6, 7] (Prog.thin split_lin_t4 (linT3))))))
    (Prog.scale (-1) (test_t2_aaaa))
    (test_t2_aaaa_cert_0 ++ (test_t2_aaaa_cert_1 ++ (test_t2_aaaa_cert_2 ++ (test_t2_aaaa_cert_3 ++ (test_t2_aaaa_cert_4 ++ (test_t2_aaaa_cert_5)))))) = true := by decide +kernel

def test_t2_abab_cert_0 : List Nat := [11530926443501199424,
  11530926443501199424,
  11530935237446737984,
  11530935237446737984,
  11530926168690401344,
  11530363493581332544,
  11530934962635939904,
  11530372287526871104,
  9226209196755394624,
  9226209196755394624,
  11531489256015659074,
  11531489256015659074,
  6920366324980645954,
  9225083571726450754,
  6920375118926184514,
  9225092365671989314,
  6920366050169847874,
  9224520621806583874,
  6920374844115386434,
  9224529415752122434,
  11530935237446737984,
  11530935237446737984,
  11530934962635939904,
  11530372287526871104,
  11531489256015659074,
  11531489256015659074,
  6920375118926184514,
  9225092365671989314,
  6920374844115386434,
  9224529415752122434,
  11530926443501191234,
  11530926443501191234,
  11530926168690393154,
  11530363493581324354,
  11531489256015659074,
  11531489256015659074,
  9225083159510261824,
  4614523315800514624,
  9225083159510261824,
  4614523315800514624,
  9225091953455800384,
  4614532109746053184,
  9225083159510261824,
  4614523315800514624,
  9225091953455800384,
  4614532109746053184,
  6919803100249989184,
  4613960503286046784,
  9225083159510253634,
  4614523315800506434,
  9225083159510253634,
  4614523315800506434,
  9225091953455792194,
  4614532109746044994,
  4613960228475240514,
  4613960228475240514,
  4613969022420779074,
  4613969022420779074,
  4613960228475240514,
  4613960228475240514,
  6919803100249989184,
  4613960503286046784,
  6919811894195527744,
  4613969297231585344,
  9225083159510261824,
  4614523315800514624,
  9225083159510261824,
  4614523315800514624,
  9225091953455800384,
  4614532109746053184,
  9225083159510253634,
  4614523315800506434,
  9225091953455792194,
  4614532109746044994,
  4613960228475240514,
  4613960228475240514,
  9224520346995785794,
  4614523178395107394,
  9224529140941324354,
  4614531972340645954,
  9225083159510261824,
  4614523315800514624,
  9225091953455800384,
  4614532109746053184,
  6919811894195527744,
  4613969297231585344,
  9225083159510253634,
  4614523315800506434,
  6919811894195519554,
  4613969297231577154,
  4613969022420779074,
  4613969022420779074,
  9224520346995785794,
  4614523178395107394,
  9224520346995785794,
  4614523178395107394,
  6919811894195527744,
  4613969297231585344,
  9225083159510261824,
  4614523315800514624,
  9225083159510261824,
  4614523315800514624,
  6919811894195527744,
  4613969297231585344,
  9225083159510261824,
  4614523315800514624,
  6919811894195519554,
  4613969297231577154,
  9224529140941324354,
  4614531972340645954,
  9224520346995785794,
  4614523178395107394,
  4613397415960780864,
  4613397415960780864,
  4613406209906319424,
  4613406209906319424,
  4613397553366179904,
  6918677475221053504,
  6918677475221053504,
  4613397553366179904,
  6918677612626452544,
  6918677612626452544,
  6918686406571991104,
  6918686406571991104,
  4613406209906319424,
  4613406209906319424,
  6918677475221053504,
  4613397553366179904,
  6918686406571991104,
  6918686406571991104,
  6918677475221053504,
  4613397553366179904,
  6918677475221053504,
  4613397553366179904,
  4613406347311194304,
  6918686269166067904,
  4613406347311194304,
  6918686269166067904,
  4613397415960256704,
  4613397415960256704,
  4613406347311194304,
  6918686269166067904,
  6918677612625928384,
  6918677612625928384,
  127811914335789120,
  91238032246317120,
  127811914335789120,
  91238032246317120,
  127811914335789120,
  91238032246317120,
  127811914335789120,
  91238032246317120,
  127811914335789120,
  91238032246317120,
  127811914335780930,
  91238032246308930,
  127811914335780930,
  91238032246308930,
  91229100895371330,
  91229100895371330,
  91229100895371330,
  91229100895371330,
  127811914335780930,
  91238032246308930,
  127811914335789120,
  91238032246317120,
  91229100895379520,
  91229100895379520,
  127811914335789120,
  91238032246317120,
  127811914335789120,
  91238032246317120,
  127811914335789120,
  91238032246317120,
  127811914335789120,
  91238032246317120,
  127811914335789120,
  91238032246317120,
  127811914335789120,
  91238032246317120,
  127811914335780930,
  91238032246308930,
  91229100895371330,
  91229100895371330,
  127811914335780930,
  91238032246308930,
  127811914335780930,
  91238032246308930,
  127811914335780930,
  91238032246308930,
  127811914335780930,
  91238032246308930,
  127811914335264960,
  91238032245792960,
  91229100894855360,
  91229100894855360,
  127811914335264960,
  91238032245792960,
  127811914335264960,
  91238032245792960,
  127811914335264960,
  91238032245792960,
  127811914335264960,
  91238032245792960,
  127811914335256770,
  91238032245784770,
  91229100894847170,
  91229100894847170,
  127811914335789120,
  91238032246317120,
  127811914335789120,
  91238032246317120,
  127811914335789120,
  91238032246317120,
  127811914335789120,
  91238032246317120,
  127811914335789120,
  91238032246317120,
  127811914335264960,
  91238032245792960,
  127811914335264960,
  91238032245792960,
  91229100894855360,
  91229100894855360,
  91229100894855360,
  91229100894855360,
  127811914335264960,
  91238032245792960,
  127249239226720320,
  91800707355385920,
  127249239226720320,
  91800707355385920,
  127249101821321280,
  91237894840918080,
  127249239226720320,
  91800707355385920,
  127249101821321280,
  91237894840918080,
  127249239226720320,
  91800707355385920,
  127249239226712130,
  91800707355377730,
  127249239226712130,
  91800707355377730,
  127249101821313090,
  91237894840909890,
  127249239226712130,
  91800707355377730,
  127249101821313090,
  91237894840909890,
  127249239226712130,
  91800707355377730,
  91229100895379520,
  91229100895379520,
  91229100895379520,
  91229100895379520,
  127249101821321280,
  91237894840918080,
  127249239226720320,
  91800707355385920,
  127249239226720320,
  91800707355385920,
  127249101821313090,
  91237894840909890,
  127249101821313090,
  91237894840909890,
  127249239226712130,
  91800707355377730,
  127249101821313090,
  91237894840909890,
  127249239226712130,
  91800707355377730,
  127249239226720320,
  91800707355385920,
  127249239226720320,
  91800707355385920,
  127249101821321280,
  91237894840918080,
  127249239226712130,
  91800707355377730,
  127249239226712130,
  91800707355377730,
  127249101821313090,
  91237894840909890,
  127249239226712130,
  91800707355377730,
  127249101821313090,
  91237894840909890,
  91229238300254400,
  91791913409323200,
  91229100894855360,
  91229100894855360,
  127249239226196160,
  91800707354861760,
  127249101820797120,
  91237894840393920,
  127249239226196160,
  91800707354861760,
  127249239226187970,
  91800707354853570,
  127249101820788930,
  91237894840385730,
  127249239226187970,
  91800707354853570,
  91229100895379520,
  91229100895379520,
  127249101821321280,
  91237894840918080,
  127249101821321280,
  91237894840918080,
  127249239226720320,
  91800707355385920,
  127249101821321280,
  91237894840918080,
  127249101821313090,
  91237894840909890,
  127249239226712130,
  91800707355377730,
  127249101821313090,
  91237894840909890,
  91229238300254400,
  91791913409323200,
  91229100894855360,
  91229100894855360,
  127249239226196160,
  91800707354861760,
  127249239226187970,
  91800707354853570,
  127249101820788930,
  91237894840385730,
  127249239226187970,
  91800707354853570,
  127249239226187970,
  91800707354853570,
  127249239226187970,
  91800707354853570,
  91800707355385920,
  127249239226720320,
  91791913409847360,
  91229238300778560,
  91800707355385920,
  127249239226720320,
  91791913409839170,
  91229238300770370,
  91800707355377730,
  127249239226712130,
  91791913409839170,
  91229238300770370,
  91791913409839170,
  91229238300770370,
  91791913409839170,
  91229238300770370,
  91237894840393920,
  127249101820797120,
  91800707354861760,
  127249239226196160,
  91800707354861760,
  127249239226196160,
  91791913409323200,
  91229238300254400,
  91800707354861760,
  127249239226196160,
  91229100894847170,
  91229100894847170,
  91229100894847170,
  91229100894847170,
  91791913409315010,
  91229238300246210,
  91800707355385920,
  127249239226720320,
  91800707355385920,
  127249239226720320,
  91791913409847360,
  91229238300778560,
  91791913409847360,
  91229238300778560,
  91791913409847360,
  91229238300778560,
  91237894840393920,
  127249101820797120,
  91229100894855360,
  91229100894855360,
  91800707354861760,
  127249239226196160,
  91791913409323200,
  91229238300254400,
  91791913409323200,
  91229238300254400,
  91791913409847360,
  91229238300778560,
  91791913409847360,
  91229238300778560,
  91800707355385920,
  127249239226720320,
  91791913409847360,
  91229238300778560,
  91800707355385920,
  127249239226720320,
  91791913409839170,
  91229238300770370]
def test_t2_abab_cert_1 : List Nat := [91800707355377730,
  127249239226712130,
  91791913409839170,
  91229238300770370,
  91791913409323200,
  91229238300254400,
  91791913409323200,
  91229238300254400,
  91800707354861760,
  127249239226196160,
  91229100894847170,
  91229100894847170,
  91237894840385730,
  127249101820788930,
  91791913409315010,
  91229238300246210,
  91800707354853570,
  127249239226187970,
  91791913409315010,
  91229238300246210,
  91791913409847360,
  91229238300778560,
  91791913409847360,
  91229238300778560,
  91800707355385920,
  127249239226720320,
  91791913409847360,
  91229238300778560,
  91800707355385920,
  127249239226720320,
  91791913409847360,
  91229238300778560,
  91791913409323200,
  91229238300254400,
  91791913409323200,
  91229238300254400,
  91800707354861760,
  127249239226196160,
  91791913409323200,
  91229238300254400,
  91800707354861760,
  127249239226196160,
  91791913409323200,
  91229238300254400,
  91229238300778560,
  91791913409847360,
  91238032246317120,
  127811914335789120,
  91237894840918080,
  127249101821321280,
  91229238300770370,
  91791913409839170,
  91238032246308930,
  127811914335780930,
  91237894840909890,
  127249101821313090,
  91229238300770370,
  91791913409839170,
  91229100895371330,
  91229100895371330,
  91229238300770370,
  91791913409839170,
  91229238300254400,
  91791913409323200,
  91238032245792960,
  127811914335264960,
  91237894840393920,
  127249101820797120,
  91229238300254400,
  91791913409323200,
  91229100894855360,
  91229100894855360,
  91238032245792960,
  127811914335264960,
  91229238300246210,
  91791913409315010,
  91229100894847170,
  91229100894847170,
  91238032245784770,
  127811914335256770,
  91229100895379520,
  91229100895379520,
  91238032246317120,
  127811914335789120,
  91229100895379520,
  91229100895379520,
  91229100895379520,
  91229100895379520,
  91237894840909890,
  127249101821313090,
  91229100895371330,
  91229100895371330,
  91238032246308930,
  127811914335780930,
  91229100895371330,
  91229100895371330,
  91229100895371330,
  91229100895371330,
  91229100894855360,
  91229100894855360,
  91238032245792960,
  127811914335264960,
  91229100894855360,
  91229100894855360,
  91229100894855360,
  91229100894855360,
  91229238300254400,
  91791913409323200,
  91238032245784770,
  127811914335256770,
  91238032245784770,
  127811914335256770,
  91229100894847170,
  91229100894847170,
  91238032245784770,
  127811914335256770,
  91229238300778560,
  91791913409847360,
  91238032246317120,
  127811914335789120,
  91229100895379520,
  91229100895379520,
  91237894840918080,
  127249101821321280,
  91229238300770370,
  91791913409839170,
  91238032246308930,
  127811914335780930,
  91229100895371330,
  91229100895371330,
  91237894840909890,
  127249101821313090,
  91229238300770370,
  91791913409839170,
  91229238300254400,
  91791913409323200,
  91229238300254400,
  91791913409323200,
  91238032245792960,
  127811914335264960,
  91229100894855360,
  91229100894855360,
  91237894840393920,
  127249101820797120,
  91229238300246210,
  91791913409315010,
  91238032245784770,
  127811914335256770,
  91229100894847170,
  91229100894847170,
  91237894840385730,
  127249101820788930,
  91229238300778560,
  91791913409847360,
  91238032246317120,
  127811914335789120,
  91229100895379520,
  91229100895379520,
  91229238300770370,
  91791913409839170,
  91229100895371330,
  91229100895371330,
  91237894840909890,
  127249101821313090,
  91229238300770370,
  91791913409839170,
  91238032246308930,
  127811914335780930,
  91229238300770370,
  91791913409839170,
  91229238300254400,
  91791913409323200,
  91229100894855360,
  91229100894855360,
  91237894840393920,
  127249101820797120,
  91229238300254400,
  91791913409323200,
  91238032245792960,
  127811914335264960,
  91229100894855360,
  91229100894855360,
  91229238300246210,
  91791913409315010,
  91229100894847170,
  91229100894847170,
  91237894840385730,
  127249101820788930,
  811818891239939121216,
  811818891239939121216,
  516707014859752742976,
  664172907444503846976,
  516707014722347343936,
  664172907307098447936,
  516707032447643820096,
  664208936239375327296,
  516707032310238421056,
  664208936101969928256,
  516707014722347343936,
  664172907307098447936,
  516707032310238421056,
  664208936101969928256,
  811818891102533713986,
  811818891102533713986,
  811782862307662233666,
  811746851100681830466,
  516707014859752734786,
  664172907444503838786,
  811782879895553310786,
  811782879895553310786,
  516707032447643811906,
  664208936239375319106,
  811818891102533713986,
  811818891102533713986,
  516707014859752742976,
  664172907444503846976,
  516707014722347343936,
  664172907307098447936,
  516707032447643820096,
  664208936239375327296,
  516707032310238421056,
  664208936101969928256,
  811818891239939121216,
  811818891239939121216,
  664208909857538711616,
  369133079860114890816,
  664208909857538711616,
  369133079860114890816,
  664208909720133312576,
  369133079722709491776,
  369097042271297871936,
  369097042271297871936,
  369097042133892472896,
  369097042133892472896,
  369097042271297871936,
  369097042271297871936,
  664208909857538187456,
  369133079860114366656,
  664208909857538187456,
  369133079860114366656,
  664208909720132788416,
  369133079722708967616,
  664208909857538187456,
  369133079860114366656,
  664208909720132788416,
  369133079722708967616,
  516670986064880738496,
  369097059859188424896,
  664208909720133312576,
  369133079722709491776,
  369097042133892472896,
  369097042133892472896,
  369097042271297871936,
  369097042271297871936,
  664208909720133304386,
  369133079722709483586,
  664208909857538703426,
  369133079860114882626,
  664172889719207362626,
  369133070928763945026,
  664172889719207362626,
  369133070928763945026,
  369097042271297863746,
  369097042271297863746,
  664208909720132788416,
  369133079722708967616,
  516670986064880738496,
  369097059859188424896,
  516670986064880738496,
  369097059859188424896,
  664208909720132788416,
  369133079722708967616,
  516670986064880738496,
  369097059859188424896,
  664208909720132780226,
  369133079722708959426,
  664208909857538179266,
  369133079860114358466,
  664208909857538179266,
  369133079860114358466,
  664208909857538711616,
  369133079860114890816,
  664208909720133312576,
  369133079722709491776,
  664172889856612769856,
  369133071066169352256,
  369097042271297871936,
  369097042271297871936,
  369097042133892472896,
  369097042133892472896,
  664208909857538187456,
  369133079860114366656,
  664208909720132788416,
  369133079722708967616,
  516670986064880738496,
  369097059859188424896,
  664208909857538187456,
  369133079860114366656,
  664208909720132788416,
  369133079722708967616,
  516598946063029379136,
  369061031064317468736,
  516598954856974917696,
  516598954856974917696,
  516598954719569518656,
  516598954719569518656,
  369061022270371930176,
  369061022270371930176,
  369061022132966531136,
  369061022132966531136,
  369061031064317468736,
  516598946063029379136,
  516598954719569518656,
  516598954719569518656,
  369061031064317468736,
  516598946063029379136,
  369061031064317468736,
  516598946063029379136,
  369061022132966531136,
  369061022132966531136,
  369061031064317468736,
  516598946063029379136,
  516598945925623971906,
  369061030926912061506,
  516598954856974909506,
  516598954856974909506,
  516598945925623971906,
  369061030926912061506,
  516598945925623971906,
  369061030926912061506,
  369061022270371921986,
  369061022270371921986,
  90111994866966592,
  126123201847369792,
  90111994866966592,
  126123201847369792,
  90103200921428032,
  90103200921428032,
  90111857461567552,
  126123064441970752,
  90103063516028992,
  90103063516028992,
  90111994866966592,
  126123201847369792,
  90111994866958402,
  126123201847361602,
  90111994866958402,
  126123201847361602,
  90103200921419842,
  90103200921419842,
  90111857461559362,
  126123064441962562,
  90103063516020802,
  90103063516020802,
  90111994866958402,
  126123201847361602,
  90111994833403972,
  126123201780269122,
  90111994833403972,
  126123201780269122,
  90103200887865412,
  90103200854327362,
  90111994833403972,
  126123201780269122,
  90103200887865412,
  90103200854327362,
  90111994833403972,
  126123201780269122,
  90111994833403972,
  126123201780269122,
  90111994833403972,
  126123201780269122,
  90103200887865412,
  90103200854327362,
  90111994833403972,
  126123201780269122,
  90103200887865412,
  90103200854327362,
  90111994833403972,
  126123201780269122,
  126140787591487552,
  126140787591487552,
  126140787591487552,
  126140787591487552,
  126140787591487552,
  126140787591487552,
  126140650186088512,
  126140650186088512,
  126140650186088512,
  126140650186088512,
  126140787591487552,
  126140787591487552,
  90111990573039682,
  126114405754863682,
  90111853167640642,
  126114268349464642,
  90111990573039682,
  126114405754863682,
  126140787557924932,
  126140787524386882]
def test_t2_abab_cert_2 : List Nat := [126140787557924932,
  126140787524386882,
  126140787557924932,
  126140787524386882,
  90111990539485252,
  126114405687771202,
  90111990539485252,
  126114405687771202,
  126140787557924932,
  126140787524386882,
  90111990539485252,
  126114405687771202,
  126140787557924932,
  126140787524386882,
  126140787557924932,
  126140787524386882,
  90111990539485252,
  126114405687771202,
  126140787591487552,
  126140787591487552,
  126140787591487552,
  126140787591487552,
  126140787591487552,
  126140787591487552,
  126140650186088512,
  126140650186088512,
  126140650186088512,
  126140650186088512,
  126140787591487552,
  126140787591487552,
  90111990573039682,
  126114405754863682,
  90111853167640642,
  126114268349464642,
  90111990573039682,
  126114405754863682,
  126140787557924932,
  126140787524386882,
  126140787557924932,
  126140787524386882,
  126140787557924932,
  126140787524386882,
  90111990539485252,
  126114405687771202,
  90111990539485252,
  126114405687771202,
  126140787557924932,
  126140787524386882,
  90111990539485252,
  126114405687771202,
  126140787557924932,
  126140787524386882,
  126140787557924932,
  126140787524386882,
  90111990539485252,
  126114405687771202,
  126140785444004032,
  126140787590439232,
  126140785444004032,
  126140787590439232,
  126140648038604992,
  126140650185040192,
  126140785443995842,
  126140787590431042,
  126140785443995842,
  126140787590431042,
  126140785443995842,
  126140787590431042,
  126140648038596802,
  126140650185032002,
  126140648038596802,
  126140650185032002,
  126140785443995842,
  126140787590431042,
  126140785410441412,
  126140787523338562,
  126140785410441412,
  126140787523338562,
  126140785410441412,
  126140787523338562,
  126140785410441412,
  126140787523338562,
  126140785410441412,
  126140787523338562,
  126140785410441412,
  126140787523338562,
  126140785410441412,
  126140787523338562,
  126140785410441412,
  126140787523338562,
  126140785410441412,
  126140787523338562,
  126140785410441412,
  126140787523338562,
  126140785444004032,
  126140787590439232,
  126140785444004032,
  126140787590439232,
  126140648038604992,
  126140650185040192,
  126140785443995842,
  126140787590431042,
  126140785443995842,
  126140787590431042,
  126140785443995842,
  126140787590431042,
  126140648038596802,
  126140650185032002,
  126140648038596802,
  126140650185032002,
  126140785443995842,
  126140787590431042,
  126140785410441412,
  126140787523338562,
  126140785410441412,
  126140787523338562,
  126140785410441412,
  126140787523338562,
  126140785410441412,
  126140787523338562,
  126140785410441412,
  126140787523338562,
  126140785410441412,
  126140787523338562,
  126140785410441412,
  126140787523338562,
  126140785410441412,
  126140787523338562,
  126140785410441412,
  126140787523338562,
  126140785410441412,
  126140787523338562,
  162143194184425792,
  162143194184425792,
  162143194184425792,
  162143194184425792,
  162143194183901632,
  162134400238887232,
  162143056779026752,
  162143056779026752,
  162143056778502592,
  162134262833488192,
  126114397165977922,
  54083191406592322,
  126114397164929602,
  18054396535112002,
  126114259760578882,
  54083054001193282,
  126114259759530562,
  18054259129712962,
  162143194184417602,
  162143194184417602,
  162143194150863172,
  162143194117325122,
  162143194150863172,
  162143194117325122,
  162143194150339012,
  162134400171786562,
  126114397132423492,
  54083191339499842,
  126114397131375172,
  18054396468019522,
  162143194150863172,
  162143194117325122,
  162143194150863172,
  162143194117325122,
  126114397132423492,
  54083191339499842,
  126114397131375172,
  18054396468019522,
  162143194150863172,
  162143194117325122,
  162143194150339012,
  162134400171786562,
  162143194150863172,
  162143194117325122,
  1157241458401344,
  1719916567470144,
  1157241458401344,
  1719916567470144,
  1148447512862784,
  1711122621931584,
  1157104053002304,
  1157104053002304,
  1148310107463744,
  1148310107463744,
  1157241458401344,
  1719916567470144,
  1720191344721984,
  1720191344721984,
  1720191344721984,
  1720191344721984,
  1711397399183424,
  1711397399183424,
  1720191344721984,
  1720191344721984,
  1711397399183424,
  1711397399183424,
  1720191344721984,
  1720191344721984,
  1720191344721984,
  1720191344721984,
  1720191344721984,
  1720191344721984,
  1711397399183424,
  1711397399183424,
  1720191344721984,
  1720191344721984,
  1711397399183424,
  1711397399183424,
  1720191344721984,
  1720191344721984,
  1720191311167554,
  1720191344705604,
  1720191311167554,
  1720191344705604,
  1711397365628994,
  1711397399167044,
  1720191311167554,
  1720191344705604,
  1720191311167554,
  1720191344705604,
  1711397365628994,
  1711397399167044,
  2282728947736644,
  2282728947736644,
  2282728947736644,
  2282728947736644,
  2273935002198084,
  2273935002198084,
  2282728947728454,
  2282591542337604,
  2273935002189894,
  2273797596799044,
  1157241457877184,
  1719916566945984,
  1157241457877184,
  1719916566945984,
  1148447512338624,
  1711122621407424,
  1157104052478144,
  1157104052478144,
  1148310106939584,
  1148310106939584,
  1157241457877184,
  1719916566945984,
  1157241390784704,
  1719779128000704,
  1148447445246144,
  1710985182462144,
  1157241390784704,
  1719779128000704,
  1157241390784704,
  1719779128000704,
  1148447445246144,
  1710985182462144,
  1157241390784704,
  1719779128000704,
  1720191310643394,
  1720191344181444,
  1720191310643394,
  1720191344181444,
  1711397365104834,
  1711397398642884,
  1720191310643394,
  1720191344181444,
  1711397365104834,
  1711397398642884,
  1720191310643394,
  1720191344181444,
  1720191310643394,
  1720191344181444,
  1720191310643394,
  1720191344181444,
  1711397365104834,
  1711397398642884,
  1720191310643394,
  1720191344181444,
  1711397365104834,
  1711397398642884,
  1720191310643394,
  1720191344181444,
  1719778993799364,
  594291403808964,
  1710985048260804,
  585497458270404,
  1719778993782984,
  31341483942084,
  1710985048244424,
  22547538403524,
  2282728947212484,
  2282728947212484,
  1157239310393664,
  1719912273027264,
  1157239310393664,
  1719912273027264,
  1157239310393664,
  1719912273027264,
  1157101904994624,
  1157099758559424,
  1157101904994624,
  1157099758559424,
  1157239310393664,
  1719912273027264,
  1720189196714304,
  1720187050279104,
  1720189196714304,
  1720187050279104,
  1720189196714304,
  1720187050279104,
  1157239243301184,
  1719774834081984,
  1157239243301184,
  1719774834081984,
  1720189196714304,
  1720187050279104,
  1720189196714304,
  1720187050279104,
  1157239243301184,
  1719774834081984,
  1720189196714304,
  1720187050279104,
  1157239243301184,
  1719774834081984,
  1720189163159874,
  1720187050262724,
  1720189163159874,
  1720187050262724,
  1720189163159874,
  1720187050262724,
  1720189163159874,
  1720187050262724,
  1720189163159874,
  1720187050262724,
  1720189163159874,
  1720187050262724,
  1720189163159874,
  1720187050262724,
  1720189163159874,
  1720187050262724,
  1720189163159874,
  1720187050262724,
  1720189163159874,
  1720187050262724,
  2282726799728964,
  2282724653293764,
  2282726799728964,
  2282724653293764,
  1719776846315844,
  594287109890244,
  2282726799720774,
  2282587247894724,
  1719776846299464,
  31337190023364,
  2282726799728964,
  2282724653293764,
  1157239310393664,
  1719912273027264,
  1157239310393664,
  1719912273027264,
  1157239310393664,
  1719912273027264,
  1157101904994624,
  1157099758559424,
  1157101904994624,
  1157099758559424,
  1157239310393664,
  1719912273027264,
  1720189196714304,
  1720187050279104,
  1720189196714304,
  1720187050279104,
  1157239243301184,
  1719774834081984,
  1720189196714304,
  1720187050279104,
  1157239243301184,
  1719774834081984,
  1720189196714304,
  1720187050279104,
  1157239243301184,
  1719774834081984,
  1720189196714304,
  1720187050279104,
  1720189196714304,
  1720187050279104,
  1157239243301184,
  1719774834081984,
  1720189163159874,
  1720187050262724,
  1720189163159874,
  1720187050262724,
  1720189163159874,
  1720187050262724,
  1720189163159874,
  1720187050262724,
  1720189163159874,
  1720187050262724,
  1720189163159874,
  1720187050262724]
def test_t2_abab_cert_3 : List Nat := [1720189163159874,
  1720187050262724,
  1720189163159874,
  1720187050262724,
  1720189163159874,
  1720187050262724,
  1720189163159874,
  1720187050262724,
  2282726799728964,
  2282724653293764,
  1719776846315844,
  594287109890244,
  2282726799728964,
  2282724653293764,
  1719776846299464,
  31337190023364,
  2282726799720774,
  2282587247894724,
  2282726799728964,
  2282724653293764,
  11530926443501199424,
  11530926443501199424,
  11530935237446737984,
  11530935237446737984,
  11530926168690401344,
  11530363493581332544,
  11530934962635939904,
  11530372287526871104,
  9226209196755394624,
  9226209196755394624,
  11531489256015667264,
  11531489256015667264,
  6920366324980654144,
  9225083571726458944,
  6920375118926192704,
  9225092365671997504,
  6920366050169856064,
  9224520621806592064,
  6920374844115394624,
  9224529415752130624,
  11530935237446737984,
  11530935237446737984,
  11530934962635939904,
  11530372287526871104,
  11531489256015667264,
  11531489256015667264,
  11530926443501199424,
  11530926443501199424,
  6920375118926192704,
  9225092365671997504,
  11530926168690401344,
  11530363493581332544,
  6920374844115394624,
  9224529415752130624,
  11531489256015667264,
  11531489256015667264,
  9225083159510261824,
  4614523315800514624,
  9225083159510261824,
  4614523315800514624,
  9225091953455800384,
  4614532109746053184,
  9225083159510261824,
  4614523315800514624,
  9225091953455800384,
  4614532109746053184,
  6919803100249989184,
  4613960503286046784,
  9225083159510261824,
  4614523315800514624,
  4613960228475248704,
  4613960228475248704,
  4613969022420787264,
  4613969022420787264,
  9225083159510261824,
  4614523315800514624,
  9225091953455800384,
  4614532109746053184,
  4613960228475248704,
  4613960228475248704,
  9225083159510261824,
  4614523315800514624,
  9225083159510261824,
  4614523315800514624,
  9225091953455800384,
  4614532109746053184,
  6919803100249989184,
  4613960503286046784,
  6919811894195527744,
  4613969297231585344,
  9224520346995793984,
  4614523178395115584,
  9224529140941332544,
  4614531972340654144,
  9225083159510261824,
  4614523315800514624,
  9225091953455800384,
  4614532109746053184,
  4613960228475248704,
  4613960228475248704,
  9225083159510261824,
  4614523315800514624,
  6919811894195527744,
  4613969297231585344,
  9225091953455800384,
  4614532109746053184,
  9225083159510261824,
  4614523315800514624,
  9224520346995793984,
  4614523178395115584,
  4613969022420787264,
  4613969022420787264,
  6919811894195527744,
  4613969297231585344,
  9224520346995793984,
  4614523178395115584,
  9225083159510261824,
  4614523315800514624,
  6919811894195527744,
  4613969297231585344,
  9225083159510261824,
  4614523315800514624,
  6919811894195527744,
  4613969297231585344,
  9225083159510261824,
  4614523315800514624,
  9224529140941332544,
  4614531972340654144,
  6919811894195527744,
  4613969297231585344,
  9224520346995793984,
  4614523178395115584,
  6918677475221053504,
  4613397553366179904,
  6918677612626452544,
  6918677612626452544,
  6918686406571991104,
  6918686406571991104,
  4613397415960780864,
  4613397415960780864,
  4613406209906319424,
  4613406209906319424,
  4613397553366179904,
  6918677475221053504,
  6918677475221053504,
  4613397553366179904,
  6918686406571991104,
  6918686406571991104,
  6918677475221053504,
  4613397553366179904,
  4613406209906319424,
  4613406209906319424,
  6918677475221053504,
  4613397553366179904,
  4613406347311718464,
  6918686269166592064,
  6918677612626452544,
  6918677612626452544,
  4613406347311718464,
  6918686269166592064,
  4613397415960780864,
  4613397415960780864,
  4613406347311718464,
  6918686269166592064,
  127811914335789120,
  91238032246317120,
  127811914335789120,
  91238032246317120,
  127811914335789120,
  91238032246317120,
  127811914335789120,
  91238032246317120,
  127811914335789120,
  91238032246317120,
  127811914335789120,
  91238032246317120,
  91229100895379520,
  91229100895379520,
  127811914335789120,
  91238032246317120,
  127811914335789120,
  91238032246317120,
  91229100895379520,
  91229100895379520,
  127811914335789120,
  91238032246317120,
  127811914335789120,
  91238032246317120,
  127811914335789120,
  91238032246317120,
  127811914335789120,
  91238032246317120,
  127811914335789120,
  91238032246317120,
  91229100895379520,
  91229100895379520,
  127811914335789120,
  91238032246317120,
  127811914335789120,
  91238032246317120,
  127811914335789120,
  91238032246317120,
  127811914335789120,
  91238032246317120,
  91229100895379520,
  91229100895379520,
  127811914335789120,
  91238032246317120,
  127811914335789120,
  91238032246317120,
  127811914335789120,
  91238032246317120,
  127811914335789120,
  91238032246317120,
  127811914335789120,
  91238032246317120,
  91229100895379520,
  91229100895379520,
  127811914335789120,
  91238032246317120,
  127811914335789120,
  91238032246317120,
  127811914335789120,
  91238032246317120,
  127811914335789120,
  91238032246317120,
  91229100895379520,
  91229100895379520,
  127811914335789120,
  91238032246317120,
  127811914335789120,
  91238032246317120,
  127811914335789120,
  91238032246317120,
  127811914335789120,
  91238032246317120,
  127811914335789120,
  91238032246317120,
  127811914335789120,
  91238032246317120,
  127811914335789120,
  91238032246317120,
  91229100895379520,
  91229100895379520,
  127811914335789120,
  91238032246317120,
  91229100895379520,
  91229100895379520,
  127249239226720320,
  91800707355385920,
  127249239226720320,
  91800707355385920,
  127249239226720320,
  91800707355385920,
  127249101821321280,
  91237894840918080,
  127249101821321280,
  91237894840918080,
  127249239226720320,
  91800707355385920,
  127249239226720320,
  91800707355385920,
  127249239226720320,
  91800707355385920,
  127249239226720320,
  91800707355385920,
  127249101821321280,
  91237894840918080,
  127249101821321280,
  91237894840918080,
  127249239226720320,
  91800707355385920,
  127249101821321280,
  91237894840918080,
  127249239226720320,
  91800707355385920,
  127249239226720320,
  91800707355385920,
  91229100895379520,
  91229100895379520,
  91229100895379520,
  91229100895379520,
  127249101821321280,
  91237894840918080,
  127249239226720320,
  91800707355385920,
  127249101821321280,
  91237894840918080,
  127249101821321280,
  91237894840918080,
  127249239226720320,
  91800707355385920,
  127249239226720320,
  91800707355385920,
  127249239226720320,
  91800707355385920,
  127249101821321280,
  91237894840918080,
  127249239226720320,
  91800707355385920,
  91229238300778560,
  91791913409847360,
  127249101821321280,
  91237894840918080,
  91229100895379520,
  91229100895379520,
  127249239226720320,
  91800707355385920,
  127249239226720320,
  91800707355385920,
  127249239226720320,
  91800707355385920,
  127249239226720320,
  91800707355385920,
  127249101821321280,
  91237894840918080,
  127249101821321280,
  91237894840918080,
  127249239226720320,
  91800707355385920,
  127249101821321280,
  91237894840918080,
  127249239226720320,
  91800707355385920,
  127249101821321280,
  91237894840918080,
  127249239226720320,
  91800707355385920,
  127249101821321280,
  91237894840918080,
  91229100895379520,
  91229100895379520,
  127249101821321280,
  91237894840918080,
  127249239226720320,
  91800707355385920,
  91229238300778560,
  91791913409847360,
  91229100895379520,
  91229100895379520,
  127249239226720320,
  91800707355385920,
  127249101821321280,
  91237894840918080,
  127249101821321280,
  91237894840918080,
  127249239226720320,
  91800707355385920,
  127249239226720320,
  91800707355385920,
  127249239226720320,
  91800707355385920,
  127249101821321280,
  91237894840918080,
  127249239226720320,
  91800707355385920,
  91791913409847360,
  91229238300778560,
  91800707355385920,
  127249239226720320,
  91800707355385920,
  127249239226720320,
  91800707355385920,
  127249239226720320,
  91791913409847360,
  91229238300778560,
  91237894840918080,
  127249101821321280,
  91800707355385920,
  127249239226720320,
  91800707355385920,
  127249239226720320,
  91791913409847360,
  91229238300778560,
  91791913409847360,
  91229238300778560,
  91791913409847360,
  91229238300778560,
  91800707355385920,
  127249239226720320,
  91791913409847360,
  91229238300778560,
  91229100895379520,
  91229100895379520,
  91791913409847360,
  91229238300778560,
  91229100895379520,
  91229100895379520,
  91791913409847360,
  91229238300778560,
  91800707355385920,
  127249239226720320,
  91791913409847360,
  91229238300778560,
  91800707355385920,
  127249239226720320,
  91791913409847360,
  91229238300778560,
  91800707355385920,
  127249239226720320]
def test_t2_abab_cert_4 : List Nat := [91791913409847360,
  91229238300778560,
  91237894840918080,
  127249101821321280,
  91791913409847360,
  91229238300778560,
  91229100895379520,
  91229100895379520,
  91791913409847360,
  91229238300778560,
  91791913409847360,
  91229238300778560,
  91800707355385920,
  127249239226720320,
  91791913409847360,
  91229238300778560,
  91800707355385920,
  127249239226720320,
  91791913409847360,
  91229238300778560,
  91791913409847360,
  91229238300778560,
  91800707355385920,
  127249239226720320,
  91791913409847360,
  91229238300778560,
  91800707355385920,
  127249239226720320,
  91791913409847360,
  91229238300778560,
  91229100895379520,
  91229100895379520,
  91237894840918080,
  127249101821321280,
  91791913409847360,
  91229238300778560,
  91800707355385920,
  127249239226720320,
  91791913409847360,
  91229238300778560,
  91791913409847360,
  91229238300778560,
  91791913409847360,
  91229238300778560,
  91800707355385920,
  127249239226720320,
  91791913409847360,
  91229238300778560,
  91800707355385920,
  127249239226720320,
  91791913409847360,
  91229238300778560,
  91791913409847360,
  91229238300778560,
  91791913409847360,
  91229238300778560,
  91800707355385920,
  127249239226720320,
  91791913409847360,
  91229238300778560,
  91800707355385920,
  127249239226720320,
  91791913409847360,
  91229238300778560,
  91229238300778560,
  91791913409847360,
  91238032246317120,
  127811914335789120,
  91237894840918080,
  127249101821321280,
  91229238300778560,
  91791913409847360,
  91229238300778560,
  91791913409847360,
  91238032246317120,
  127811914335789120,
  91229100895379520,
  91229100895379520,
  91237894840918080,
  127249101821321280,
  91238032246317120,
  127811914335789120,
  91229238300778560,
  91791913409847360,
  91229238300778560,
  91791913409847360,
  91238032246317120,
  127811914335789120,
  91229100895379520,
  91229100895379520,
  91237894840918080,
  127249101821321280,
  91229238300778560,
  91791913409847360,
  91229238300778560,
  91791913409847360,
  91229100895379520,
  91229100895379520,
  91238032246317120,
  127811914335789120,
  91229100895379520,
  91229100895379520,
  91238032246317120,
  127811914335789120,
  91229100895379520,
  91229100895379520,
  91229100895379520,
  91229100895379520,
  91229100895379520,
  91229100895379520,
  91229238300778560,
  91791913409847360,
  91238032246317120,
  127811914335789120,
  91229100895379520,
  91229100895379520,
  91229100895379520,
  91229100895379520,
  91229100895379520,
  91229100895379520,
  91238032246317120,
  127811914335789120,
  91229100895379520,
  91229100895379520,
  91237894840918080,
  127249101821321280,
  91229100895379520,
  91229100895379520,
  91238032246317120,
  127811914335789120,
  91238032246317120,
  127811914335789120,
  91229100895379520,
  91229100895379520,
  91238032246317120,
  127811914335789120,
  91229238300778560,
  91791913409847360,
  91238032246317120,
  127811914335789120,
  91229100895379520,
  91229100895379520,
  91237894840918080,
  127249101821321280,
  91229238300778560,
  91791913409847360,
  91229238300778560,
  91791913409847360,
  91238032246317120,
  127811914335789120,
  91229100895379520,
  91229100895379520,
  91237894840918080,
  127249101821321280,
  91229238300778560,
  91791913409847360,
  91238032246317120,
  127811914335789120,
  91229100895379520,
  91229100895379520,
  91237894840918080,
  127249101821321280,
  91229238300778560,
  91791913409847360,
  91229238300778560,
  91791913409847360,
  91238032246317120,
  127811914335789120,
  91229100895379520,
  91229100895379520,
  91237894840918080,
  127249101821321280,
  91229238300778560,
  91791913409847360,
  91238032246317120,
  127811914335789120,
  91229100895379520,
  91229100895379520,
  91229238300778560,
  91791913409847360,
  91229238300778560,
  91791913409847360,
  91238032246317120,
  127811914335789120,
  91229100895379520,
  91229100895379520,
  91237894840918080,
  127249101821321280,
  91229100895379520,
  91229100895379520,
  91229238300778560,
  91791913409847360,
  91229238300778560,
  91791913409847360,
  91238032246317120,
  127811914335789120,
  91229100895379520,
  91229100895379520,
  91237894840918080,
  127249101821321280,
  91229238300778560,
  91791913409847360,
  91229238300778560,
  91791913409847360,
  91229100895379520,
  91229100895379520,
  91237894840918080,
  127249101821321280,
  811818891239939121216,
  811818891239939121216,
  516707014859752742976,
  664172907444503846976,
  516707032447643820096,
  664208936239375327296,
  516707014722347343936,
  664172907307098447936,
  516707032310238421056,
  664208936101969928256,
  516707014722347343936,
  664172907307098447936,
  516707032310238421056,
  664208936101969928256,
  811818891102533722176,
  811818891102533722176,
  516707014859752742976,
  664172907444503846976,
  516707032447643820096,
  664208936239375327296,
  811782862307662241856,
  811746851100681838656,
  811782879895553318976,
  811782879895553318976,
  811818891102533722176,
  811818891102533722176,
  516707014859752742976,
  664172907444503846976,
  516707032447643820096,
  664208936239375327296,
  516707014722347343936,
  664172907307098447936,
  516707032310238421056,
  664208936101969928256,
  811818891239939121216,
  811818891239939121216,
  664208909857538711616,
  369133079860114890816,
  664208909857538711616,
  369133079860114890816,
  369097042271297871936,
  369097042271297871936,
  664208909720133312576,
  369133079722709491776,
  369097042133892472896,
  369097042133892472896,
  369097042271297871936,
  369097042271297871936,
  664208909857538711616,
  369133079860114890816,
  664208909857538711616,
  369133079860114890816,
  664208909857538711616,
  369133079860114890816,
  664208909720133312576,
  369133079722709491776,
  664208909720133312576,
  369133079722709491776,
  516670986064881262656,
  369097059859188949056,
  664208909720133312576,
  369133079722709491776,
  369097042133892472896,
  369097042133892472896,
  369097042271297871936,
  369097042271297871936,
  516670986064881262656,
  369097059859188949056,
  516670986064881262656,
  369097059859188949056,
  664208909720133312576,
  369133079722709491776,
  664208909720133312576,
  369133079722709491776,
  516670986064881262656,
  369097059859188949056,
  664208909720133312576,
  369133079722709491776,
  664208909857538711616,
  369133079860114890816,
  369097042271297871936,
  369097042271297871936,
  664172889719207370816,
  369133070928763953216,
  664172889719207370816,
  369133070928763953216,
  664208909720133312576,
  369133079722709491776,
  664208909857538711616,
  369133079860114890816,
  664208909857538711616,
  369133079860114890816,
  664208909857538711616,
  369133079860114890816,
  369097042271297871936,
  369097042271297871936,
  664208909720133312576,
  369133079722709491776,
  369097042133892472896,
  369097042133892472896,
  664172889856612769856,
  369133071066169352256,
  516670986064881262656,
  369097059859188949056,
  664208909857538711616,
  369133079860114890816,
  664208909857538711616,
  369133079860114890816,
  664208909720133312576,
  369133079722709491776,
  664208909720133312576,
  369133079722709491776,
  516598946063029379136,
  369061031064317468736,
  369061022270371930176,
  369061022270371930176,
  516598954856974917696,
  516598954856974917696,
  369061022132966531136,
  369061022132966531136,
  516598954719569518656,
  516598954719569518656,
  369061031064317468736,
  516598946063029379136,
  369061031064317468736,
  516598946063029379136,
  369061031064317468736,
  516598946063029379136,
  369061022132966531136,
  369061022132966531136,
  516598954719569518656,
  516598954719569518656,
  369061031064317468736,
  516598946063029379136,
  516598945925623980096,
  369061030926912069696,
  369061022270371930176,
  369061022270371930176,
  516598954856974917696,
  516598954856974917696,
  516598945925623980096,
  369061030926912069696,
  516598945925623980096,
  369061030926912069696,
  2274209947197504,
  2274209947197504,
  2274209947197504,
  2274209947197504,
  1711397432729664,
  1711397432729664,
  2274072541798464,
  2274072541798464,
  1711122621931584,
  1148447512862784,
  2274209947197504,
  2274209947197504,
  1711122621931584,
  1148447512862784,
  1711122621931584,
  1148447512862784,
  1711122621931584,
  1148447512862784,
  1711122621931584,
  1148447512862784,
  1711122621931584,
  1148447512862784,
  1711122621931584,
  1148447512862784,
  1711122621931584,
  1148447512862784,
  1148310107463744,
  1148310107463744,
  1711122621931584,
  1148447512862784,
  1148310107463744,
  1148310107463744,
  1148447512862784,
  1711122621931584,
  1148447512862784,
  1711122621931584,
  1148447512862784,
  1711122621931584,
  1148310107463744,
  1148310107463744,
  1148310107463744,
  1148310107463744,
  1148447512862784,
  1711122621931584,
  2274209947197504,
  2274209947197504,
  2274209947197504,
  2274209947197504]
def test_t2_abab_cert_5 : List Nat := [2283003892736064,
  2283003892736064,
  2274072541798464,
  2274072541798464,
  2282866487337024,
  2282866487337024,
  1711397432729664,
  1711397432729664,
  1720191378268224,
  1720191378268224,
  1711122621931584,
  1148447512862784,
  1719916567470144,
  1157241458401344,
  2274209947197504,
  2274209947197504,
  1711122621931584,
  1148447512862784,
  1711122621931584,
  1148447512862784,
  1719916567470144,
  1157241458401344,
  1711122621931584,
  1148447512862784,
  1711122621931584,
  1148447512862784,
  1719916567470144,
  1157241458401344,
  1711122621931584,
  1148447512862784,
  1719916567470144,
  1157241458401344,
  1711122621931584,
  1148447512862784,
  1711122621931584,
  1148447512862784,
  1711122621931584,
  1148447512862784,
  1719916567470144,
  1157241458401344,
  1711122621931584,
  1148447512862784,
  1719916567470144,
  1157241458401344,
  1711122621931584,
  1148447512862784,
  1148310107463744,
  1148310107463744,
  1157104053002304,
  1157104053002304,
  1148310107463744,
  1148310107463744,
  1148447512862784,
  1711122621931584,
  1148447512862784,
  1711122621931584,
  1157241458401344,
  1719916567470144,
  1148310107463744,
  1148310107463744,
  1157104053002304,
  1157104053002304,
  1148447512862784,
  1711122621931584,
  1148447512862784,
  1711122621931584,
  1148447512862784,
  1711122621931584,
  1157241458401344,
  1719916567470144,
  1148310107463744,
  1148310107463744,
  1157104053002304,
  1157104053002304,
  1148447512862784,
  1711122621931584,
  162151859313451072,
  162151859313451072,
  126123064441970752,
  90111857461567552,
  126140652333047872,
  126140652333047872,
  162151859313451072,
  162151859313451072,
  162160653258989632,
  162160653258989632,
  162151859313451072,
  162151859313451072,
  126123201847369792,
  90111994866966592,
  126140789738446912,
  126140789738446912,
  126123064441970752,
  90111857461567552,
  126140652333047872,
  126140652333047872,
  162151996718850112,
  162151996718850112,
  162151996718850112,
  162151996718850112,
  162151996718850112,
  162151996718850112,
  162160790664388672,
  162160790664388672,
  162151859313451072,
  162151859313451072,
  162160653258989632,
  162160653258989632,
  126123064441970752,
  90111857461567552,
  90103063516028992,
  90103063516028992,
  126123064441970752,
  90111857461567552,
  126123064441970752,
  90111857461567552,
  90103063516028992,
  90103063516028992,
  126123064441970752,
  90111857461567552,
  126123064441970752,
  90111857461567552,
  126123064441970752,
  90111857461567552,
  126123064441970752,
  90111857461567552,
  126123064441970752,
  90111857461567552,
  90103200921428032,
  90103200921428032,
  90103063516028992,
  90103063516028992,
  90103200921428032,
  90103200921428032,
  126123201847369792,
  90111994866966592,
  126123201847369792,
  90111994866966592,
  126123201847369792,
  90111994866966592,
  126123064441970752,
  90111857461567552,
  126123064441970752,
  90111857461567552,
  126123201847369792,
  90111994866966592,
  126123201847369792,
  90111994866966592,
  126123201847369792,
  90111994866966592,
  126123201847369792,
  90111994866966592,
  126123064441970752,
  90111857461567552,
  126123064441970752,
  90111857461567552,
  126123201847369792,
  90111994866966592,
  126123201847369792,
  90111994866966592,
  126123201847369792,
  90111994866966592,
  126123064441970752,
  90111857461567552,
  90103063516028992,
  90103063516028992,
  90103063516028992,
  90103063516028992,
  90111857461567552,
  126123064441970752,
  90103063516028992,
  90103063516028992,
  90111857461567552,
  126123064441970752,
  90103063516028992,
  90103063516028992,
  90103200921428032,
  90103200921428032,
  90103200921428032,
  90103200921428032,
  90111994866966592,
  126123201847369792,
  90103063516028992,
  90103063516028992,
  90111857461567552,
  126123064441970752,
  90103200921428032,
  90103200921428032,
  90103200921428032,
  90103200921428032,
  90103200921428032,
  90103200921428032,
  90111994866966592,
  126123201847369792,
  90103063516028992,
  90103063516028992,
  90111857461567552,
  126123064441970752,
  90103200921428032,
  90103200921428032]

/-- Check test_t2_abab. C83 -/
theorem test_t2_abab : isZeroSpin kinds [aᵥ, bᵥ, iₒ, jₒ] 4 [false, true, false, true]
    (residQf1 ++ (Prog.scale (1/4) (Prog.cap 4 71 (Prog.outs [4, 5, 0, 1, 2, 3, 6, 7] (Prog.thin split_lin_t4 (linT3))))))
    (Prog.scale (-1) (test_t2_abab))
    (test_t2_abab_cert_0 ++ (test_t2_abab_cert_1 ++ (test_t2_abab_cert_2 ++ (test_t2_abab_cert_3 ++ (test_t2_abab_cert_4 ++ (test_t2_abab_cert_5)))))) = true := by decide +kernel

def test_t2_bbbb_cert_0 : List Nat := [11530926443501199424,
  11530926443501199424,
  11530935237446737984,
  11530935237446737984,
  11530926168690401344,
  11530363493581332544,
  11530934962635939904,
  11530372287526871104,
  11531489256015667264,
  11531489256015667264,
  11530926443501191234,
  11530926443501191234,
  11530935237446729794,
  11530935237446729794,
  11530926168690393154,
  11530363493581324354,
  11530934962635931714,
  11530372287526862914,
  11531489256015659074,
  11531489256015659074,
  11531489256015667264,
  11531489256015667264,
  6920375118926192704,
  9225092365671997504,
  6920374844115394624,
  9224529415752130624,
  11530926443501199424,
  11530926443501199424,
  11530926168690401344,
  11530363493581332544,
  11531489256015667264,
  11531489256015667264,
  11531489256015659074,
  11531489256015659074,
  6920375118926184514,
  9225092365671989314,
  6920374844115386434,
  9224529415752122434,
  11530926443501191234,
  11530926443501191234,
  11530926168690393154,
  11530363493581324354,
  11531489256015659074,
  11531489256015659074,
  9225083159510261824,
  4614523315800514624,
  9225083159510261824,
  4614523315800514624,
  9225091953455800384,
  4614532109746053184,
  9225083159510261824,
  4614523315800514624,
  9225091953455800384,
  4614532109746053184,
  9225083159510261824,
  4614523315800514624,
  9225083159510253634,
  4614523315800506434,
  9225083159510253634,
  4614523315800506434,
  9225091953455792194,
  4614532109746044994,
  9225083159510253634,
  4614523315800506434,
  9225091953455792194,
  4614532109746044994,
  9225083159510253634,
  4614523315800506434,
  9225083159510261824,
  4614523315800514624,
  9225091953455800384,
  4614532109746053184,
  9225083159510261824,
  4614523315800514624,
  9225083159510253634,
  4614523315800506434,
  9225091953455792194,
  4614532109746044994,
  9225083159510253634,
  4614523315800506434,
  6919803100249989184,
  4613960503286046784,
  6919811894195527744,
  4613969297231585344,
  9225083159510261824,
  4614523315800514624,
  9225083159510261824,
  4614523315800514624,
  9225083159510261824,
  4614523315800514624,
  6919803100249980994,
  4613960503286038594,
  6919811894195519554,
  4613969297231577154,
  9225083159510253634,
  4614523315800506434,
  9225083159510253634,
  4614523315800506434,
  9225083159510253634,
  4614523315800506434,
  6919811894195527744,
  4613969297231585344,
  9225083159510261824,
  4614523315800514624,
  9225083159510261824,
  4614523315800514624,
  6919811894195527744,
  4613969297231585344,
  9225083159510261824,
  4614523315800514624,
  6919811894195519554,
  4613969297231577154,
  9225083159510253634,
  4614523315800506434,
  9225083159510253634,
  4614523315800506434,
  6919811894195519554,
  4613969297231577154,
  9225083159510253634,
  4614523315800506434,
  6918677475221053504,
  4613397553366179904,
  6918686269166592064,
  4613406347311718464,
  6918677475221053504,
  4613397553366179904,
  6918677475221053504,
  4613397553366179904,
  4613406347311718464,
  6918686269166592064,
  6918677475221053504,
  4613397553366179904,
  6918677475221053504,
  4613397553366179904,
  4613406347311194304,
  6918686269166067904,
  4613406347311194304,
  6918686269166067904,
  6918677475220529344,
  4613397553365655744,
  4613406347311194304,
  6918686269166067904,
  127811914335789120,
  91238032246317120,
  127811914335789120,
  91238032246317120,
  127811914335789120,
  91238032246317120,
  127811914335789120,
  91238032246317120,
  127811914335789120,
  91238032246317120,
  127811914335780930,
  91238032246308930,
  127811914335780930,
  91238032246308930,
  127811914335780930,
  91238032246308930,
  127811914335780930,
  91238032246308930,
  127811914335780930,
  91238032246308930,
  127811914335789120,
  91238032246317120,
  127811914335789120,
  91238032246317120,
  127811914335789120,
  91238032246317120,
  91229100895379520,
  91229100895379520,
  127811914335789120,
  91238032246317120,
  127811914335789120,
  91238032246317120,
  127811914335789120,
  91238032246317120,
  127811914335789120,
  91238032246317120,
  127811914335780930,
  91238032246308930,
  91229100895371330,
  91229100895371330,
  127811914335780930,
  91238032246308930,
  127811914335780930,
  91238032246308930,
  127811914335780930,
  91238032246308930,
  127811914335780930,
  91238032246308930,
  127811914335264960,
  91238032245792960,
  91229100894855360,
  91229100894855360,
  127811914335264960,
  91238032245792960,
  127811914335264960,
  91238032245792960,
  127811914335264960,
  91238032245792960,
  127811914335264960,
  91238032245792960,
  127811914335256770,
  91238032245784770,
  91229100894847170,
  91229100894847170,
  127811914335256770,
  91238032245784770,
  127811914335256770,
  91238032245784770,
  127811914335256770,
  91238032245784770,
  127811914335256770,
  91238032245784770,
  127811914335789120,
  91238032246317120,
  127811914335789120,
  91238032246317120,
  127811914335789120,
  91238032246317120,
  127811914335789120,
  91238032246317120,
  127811914335789120,
  91238032246317120,
  127811914335264960,
  91238032245792960,
  127811914335264960,
  91238032245792960,
  127811914335264960,
  91238032245792960,
  127811914335264960,
  91238032245792960,
  127811914335264960,
  91238032245792960,
  127249239226720320,
  91800707355385920,
  127249239226720320,
  91800707355385920,
  127249101821321280,
  91237894840918080,
  127249239226720320,
  91800707355385920,
  127249101821321280,
  91237894840918080,
  127249239226720320,
  91800707355385920,
  127249239226712130,
  91800707355377730,
  127249239226712130,
  91800707355377730,
  127249101821313090,
  91237894840909890,
  127249239226712130,
  91800707355377730,
  127249101821313090,
  91237894840909890,
  127249239226712130,
  91800707355377730,
  127249101821321280,
  91237894840918080,
  127249101821321280,
  91237894840918080,
  127249101821321280,
  91237894840918080,
  127249101821313090,
  91237894840909890,
  127249101821313090,
  91237894840909890,
  127249101821313090,
  91237894840909890,
  91229238300778560,
  91791913409847360,
  91229100895379520,
  91229100895379520,
  127249239226720320,
  91800707355385920,
  127249101821321280,
  91237894840918080,
  127249239226720320,
  91800707355385920,
  91229238300770370,
  91791913409839170,
  91229100895371330,
  91229100895371330,
  127249239226712130,
  91800707355377730,
  127249101821313090,
  91237894840909890,
  127249239226712130,
  91800707355377730,
  91229238300254400,
  91791913409323200,
  91229100894855360,
  91229100894855360,
  127249239226196160,
  91800707354861760,
  127249101820797120,
  91237894840393920,
  127249239226196160,
  91800707354861760,
  91229238300246210,
  91791913409315010,
  91229100894847170,
  91229100894847170,
  127249239226187970,
  91800707354853570,
  127249101820788930,
  91237894840385730,
  127249239226187970,
  91800707354853570,
  91229100895379520,
  91229100895379520,
  127249101821321280,
  91237894840918080,
  127249101821321280,
  91237894840918080,
  127249239226720320,
  91800707355385920,
  127249101821321280,
  91237894840918080,
  91229100895371330,
  91229100895371330,
  127249101821313090,
  91237894840909890,
  127249101821313090,
  91237894840909890,
  127249239226712130,
  91800707355377730,
  127249101821313090,
  91237894840909890,
  91229100894855360,
  91229100894855360,
  127249239226196160,
  91800707354861760,
  127249101820797120,
  91237894840393920,
  127249239226196160,
  91800707354861760,
  127249239226196160,
  91800707354861760,
  91229100894847170,
  91229100894847170,
  127249239226187970,
  91800707354853570,
  127249101820788930,
  91237894840385730,
  127249239226187970,
  91800707354853570,
  127249239226187970,
  91800707354853570,
  91237894840918080,
  127249101821321280,
  91791913409847360,
  91229238300778560,
  91800707355385920,
  127249239226720320,
  91791913409847360,
  91229238300778560,
  91791913409847360,
  91229238300778560,
  91237894840909890,
  127249101821313090,
  91791913409839170,
  91229238300770370,
  91800707355377730,
  127249239226712130,
  91791913409839170,
  91229238300770370,
  91791913409839170,
  91229238300770370,
  91237894840393920,
  127249101820797120,
  91791913409323200,
  91229238300254400,
  91800707354861760,
  127249239226196160,
  91791913409323200,
  91229238300254400,
  91791913409323200,
  91229238300254400,
  91237894840385730,
  127249101820788930,
  91791913409315010,
  91229238300246210,
  91800707354853570,
  127249239226187970,
  91791913409315010,
  91229238300246210,
  91791913409315010,
  91229238300246210,
  91800707355385920,
  127249239226720320,
  91800707355385920,
  127249239226720320,
  91791913409847360,
  91229238300778560,
  91800707354861760,
  127249239226196160,
  91800707354861760,
  127249239226196160]
def test_t2_bbbb_cert_1 : List Nat := [91791913409323200,
  91229238300254400,
  91229100895379520,
  91229100895379520,
  91237894840918080,
  127249101821321280,
  91791913409847360,
  91229238300778560,
  91800707355385920,
  127249239226720320,
  91791913409847360,
  91229238300778560,
  91229100895371330,
  91229100895371330,
  91237894840909890,
  127249101821313090,
  91791913409839170,
  91229238300770370,
  91800707355377730,
  127249239226712130,
  91791913409839170,
  91229238300770370,
  91229100894855360,
  91229100894855360,
  91237894840393920,
  127249101820797120,
  91791913409323200,
  91229238300254400,
  91800707354861760,
  127249239226196160,
  91791913409323200,
  91229238300254400,
  91229100894847170,
  91229100894847170,
  91237894840385730,
  127249101820788930,
  91791913409315010,
  91229238300246210,
  91800707354853570,
  127249239226187970,
  91791913409315010,
  91229238300246210,
  91791913409847360,
  91229238300778560,
  91791913409847360,
  91229238300778560,
  91800707355385920,
  127249239226720320,
  91791913409847360,
  91229238300778560,
  91800707355385920,
  127249239226720320,
  91791913409847360,
  91229238300778560,
  91791913409323200,
  91229238300254400,
  91791913409323200,
  91229238300254400,
  91800707354861760,
  127249239226196160,
  91791913409323200,
  91229238300254400,
  91800707354861760,
  127249239226196160,
  91791913409323200,
  91229238300254400,
  91229238300778560,
  91791913409847360,
  91238032246317120,
  127811914335789120,
  91237894840918080,
  127249101821321280,
  91229238300778560,
  91791913409847360,
  91229100895379520,
  91229100895379520,
  91229238300778560,
  91791913409847360,
  91229238300770370,
  91791913409839170,
  91238032246308930,
  127811914335780930,
  91237894840909890,
  127249101821313090,
  91229238300770370,
  91791913409839170,
  91229100895371330,
  91229100895371330,
  91229238300770370,
  91791913409839170,
  91229238300254400,
  91791913409323200,
  91238032245792960,
  127811914335264960,
  91237894840393920,
  127249101820797120,
  91229238300254400,
  91791913409323200,
  91229100894855360,
  91229100894855360,
  91229238300254400,
  91791913409323200,
  91229238300246210,
  91791913409315010,
  91238032245784770,
  127811914335256770,
  91237894840385730,
  127249101820788930,
  91229238300246210,
  91791913409315010,
  91229100894847170,
  91229100894847170,
  91229238300246210,
  91791913409315010,
  91237894840918080,
  127249101821321280,
  91229100895379520,
  91229100895379520,
  91238032246317120,
  127811914335789120,
  91229100895379520,
  91229100895379520,
  91229100895379520,
  91229100895379520,
  91237894840909890,
  127249101821313090,
  91229100895371330,
  91229100895371330,
  91238032246308930,
  127811914335780930,
  91229100895371330,
  91229100895371330,
  91229100895371330,
  91229100895371330,
  91237894840393920,
  127249101820797120,
  91229100894855360,
  91229100894855360,
  91238032245792960,
  127811914335264960,
  91229100894855360,
  91229100894855360,
  91229100894855360,
  91229100894855360,
  91237894840385730,
  127249101820788930,
  91229100894847170,
  91229100894847170,
  91238032245784770,
  127811914335256770,
  91229100894847170,
  91229100894847170,
  91229100894847170,
  91229100894847170,
  91229238300778560,
  91791913409847360,
  91238032246317120,
  127811914335789120,
  91229100895379520,
  91229100895379520,
  91237894840918080,
  127249101821321280,
  91229238300778560,
  91791913409847360,
  91229238300770370,
  91791913409839170,
  91238032246308930,
  127811914335780930,
  91229100895371330,
  91229100895371330,
  91237894840909890,
  127249101821313090,
  91229238300770370,
  91791913409839170,
  91229238300254400,
  91791913409323200,
  91238032245792960,
  127811914335264960,
  91229100894855360,
  91229100894855360,
  91237894840393920,
  127249101820797120,
  91229238300254400,
  91791913409323200,
  91229238300246210,
  91791913409315010,
  91238032245784770,
  127811914335256770,
  91229100894847170,
  91229100894847170,
  91237894840385730,
  127249101820788930,
  91229238300246210,
  91791913409315010,
  91229238300778560,
  91791913409847360,
  91229100895379520,
  91229100895379520,
  91237894840918080,
  127249101821321280,
  91229238300778560,
  91791913409847360,
  91238032246317120,
  127811914335789120,
  91229238300778560,
  91791913409847360,
  91229238300770370,
  91791913409839170,
  91229100895371330,
  91229100895371330,
  91237894840909890,
  127249101821313090,
  91229238300770370,
  91791913409839170,
  91238032246308930,
  127811914335780930,
  91229238300770370,
  91791913409839170,
  91229238300254400,
  91791913409323200,
  91229100894855360,
  91229100894855360,
  91237894840393920,
  127249101820797120,
  91229238300254400,
  91791913409323200,
  91238032245792960,
  127811914335264960,
  91229238300254400,
  91791913409323200,
  91229238300246210,
  91791913409315010,
  91229100894847170,
  91229100894847170,
  91237894840385730,
  127249101820788930,
  91229238300246210,
  91791913409315010,
  91238032245784770,
  127811914335256770,
  91229238300246210,
  91791913409315010,
  811782862445067640896,
  811746851238087237696,
  811782862307662241856,
  811746851100681838656,
  811782880032958718016,
  811782880032958718016,
  811782879895553318976,
  811782879895553318976,
  811818891239939121216,
  811818891239939121216,
  811818891102533722176,
  811818891102533722176,
  811782862307662241856,
  811746851100681838656,
  516707014859752742976,
  664172907444503846976,
  811782879895553318976,
  811782879895553318976,
  516707032447643820096,
  664208936239375327296,
  811818891102533722176,
  811818891102533722176,
  811818891102533713986,
  811818891102533713986,
  811782862307662233666,
  811746851100681830466,
  516707014859752734786,
  664172907444503838786,
  811782879895553310786,
  811782879895553310786,
  516707032447643811906,
  664208936239375319106,
  811818891102533713986,
  811818891102533713986,
  516707014859752742976,
  664172907444503846976,
  516707014722347343936,
  664172907307098447936,
  516707032447643820096,
  664208936239375327296,
  516707032310238421056,
  664208936101969928256,
  811818891239939121216,
  811818891239939121216,
  664208909857538711616,
  369133079860114890816,
  664208909857538711616,
  369133079860114890816,
  664208909720133312576,
  369133079722709491776,
  664208909857538711616,
  369133079860114890816,
  664208909720133312576,
  369133079722709491776,
  664208909857538711616,
  369133079860114890816,
  664208909857538187456,
  369133079860114366656,
  664208909857538187456,
  369133079860114366656,
  664208909720132788416,
  369133079722708967616,
  664208909857538187456,
  369133079860114366656,
  664208909720132788416,
  369133079722708967616,
  664208909857538187456,
  369133079860114366656,
  664208909720133312576,
  369133079722709491776,
  516670985927475863616,
  369097059721783550016,
  516670986064881262656,
  369097059859188949056,
  664208909720133312576,
  369133079722709491776,
  664208909720133312576,
  369133079722709491776,
  664208909720133304386,
  369133079722709483586,
  516670985927475855426,
  369097059721783541826,
  516670986064881254466,
  369097059859188940866,
  664208909720133304386,
  369133079722709483586,
  664208909720133304386,
  369133079722709483586,
  664208909720132788416,
  369133079722708967616,
  516670985927475339456,
  369097059721783025856,
  516670986064880738496,
  369097059859188424896,
  664208909720132788416,
  369133079722708967616,
  664208909720132788416,
  369133079722708967616,
  664208909720132780226,
  369133079722708959426,
  516670985927475331266,
  369097059721783017666,
  516670986064880730306,
  369097059859188416706,
  664208909720132780226,
  369133079722708959426,
  664208909720132780226,
  369133079722708959426,
  516670986064881262656,
  369097059859188949056,
  516670985927475863616,
  369097059721783550016,
  664208909857538711616,
  369133079860114890816,
  516670986064880738496,
  369097059859188424896,
  516670985927475339456,
  369097059721783025856,
  664208909857538187456,
  369133079860114366656,
  516598946063029379136,
  369061031064317468736,
  516598945925623980096,
  369061030926912069696,
  516598946063029379136,
  369061031064317468736,
  369061031064317468736,
  516598946063029379136,
  369061031064317468736,
  516598946063029379136,
  516598945925623980096,
  369061030926912069696,
  369061031064317468736,
  516598946063029379136,
  516598945925623971906,
  369061030926912061506,
  369061031064317460546,
  516598946063029370946,
  516598945925623971906,
  369061030926912061506,
  516598945925623971906,
  369061030926912061506,
  90111994866966592,
  126123201847369792,
  90111994866966592,
  126123201847369792,
  90103200921428032,
  90103200921428032,
  90111857461567552,
  126123064441970752,
  90103063516028992,
  90103063516028992,
  90111994866966592,
  126123201847369792,
  90111994866958402,
  126123201847361602,
  90111994866958402,
  126123201847361602]
def test_t2_bbbb_cert_2 : List Nat := [90103200921419842,
  90103200921419842,
  90111857461559362,
  126123064441962562,
  90103063516020802,
  90103063516020802,
  90111994866958402,
  126123201847361602,
  90111994833403972,
  126123201780269122,
  90103200887865412,
  90103200854327362,
  90111994833403972,
  126123201780269122,
  90111994833403972,
  126123201780269122,
  90103200887865412,
  90103200854327362,
  90111994833403972,
  126123201780269122,
  126140787591487552,
  126140787591487552,
  126140787591487552,
  126140787591487552,
  126140787591487552,
  126140787591487552,
  126140650186088512,
  126140650186088512,
  126140650186088512,
  126140650186088512,
  126140787591487552,
  126140787591487552,
  126140787591479362,
  126140787591479362,
  126140787591479362,
  126140787591479362,
  126140787591479362,
  126140787591479362,
  126140650186080322,
  126140650186080322,
  126140650186080322,
  126140650186080322,
  126140787591479362,
  126140787591479362,
  126140787557924932,
  126140787524386882,
  126140787557924932,
  126140787524386882,
  126140787557924932,
  126140787524386882,
  126140787557924932,
  126140787524386882,
  126140787557924932,
  126140787524386882,
  126140787557924932,
  126140787524386882,
  126140787557924932,
  126140787524386882,
  126140787557924932,
  126140787524386882,
  126140787557924932,
  126140787524386882,
  126140787557924932,
  126140787524386882,
  126140787591487552,
  126140787591487552,
  126140787591487552,
  126140787591487552,
  126140787591487552,
  126140787591487552,
  126140650186088512,
  126140650186088512,
  126140650186088512,
  126140650186088512,
  126140787591487552,
  126140787591487552,
  126140787591479362,
  126140787591479362,
  126140787591479362,
  126140787591479362,
  126140787591479362,
  126140787591479362,
  126140650186080322,
  126140650186080322,
  126140650186080322,
  126140650186080322,
  126140787591479362,
  126140787591479362,
  126140787557924932,
  126140787524386882,
  126140787557924932,
  126140787524386882,
  126140787557924932,
  126140787524386882,
  126140787557924932,
  126140787524386882,
  126140787557924932,
  126140787524386882,
  126140787557924932,
  126140787524386882,
  126140787557924932,
  126140787524386882,
  126140787557924932,
  126140787524386882,
  126140787557924932,
  126140787524386882,
  126140787557924932,
  126140787524386882,
  126140785444004032,
  126140787590439232,
  126140785444004032,
  126140787590439232,
  126140785444004032,
  126140787590439232,
  126140648038604992,
  126140650185040192,
  126140648038604992,
  126140650185040192,
  126140785444004032,
  126140787590439232,
  126140785443995842,
  126140787590431042,
  126140785443995842,
  126140787590431042,
  126140785443995842,
  126140787590431042,
  126140648038596802,
  126140650185032002,
  126140648038596802,
  126140650185032002,
  126140785443995842,
  126140787590431042,
  126140785410441412,
  126140787523338562,
  126140785410441412,
  126140787523338562,
  126140785410441412,
  126140787523338562,
  126140785410441412,
  126140787523338562,
  126140785410441412,
  126140787523338562,
  126140785410441412,
  126140787523338562,
  126140785410441412,
  126140787523338562,
  126140785410441412,
  126140787523338562,
  126140785410441412,
  126140787523338562,
  126140785410441412,
  126140787523338562,
  126140785444004032,
  126140787590439232,
  126140785444004032,
  126140787590439232,
  126140785444004032,
  126140787590439232,
  126140648038604992,
  126140650185040192,
  126140648038604992,
  126140650185040192,
  126140785444004032,
  126140787590439232,
  126140785443995842,
  126140787590431042,
  126140785443995842,
  126140787590431042,
  126140785443995842,
  126140787590431042,
  126140648038596802,
  126140650185032002,
  126140648038596802,
  126140650185032002,
  126140785443995842,
  126140787590431042,
  126140785410441412,
  126140787523338562,
  126140785410441412,
  126140787523338562,
  126140785410441412,
  126140787523338562,
  126140785410441412,
  126140787523338562,
  126140785410441412,
  126140787523338562,
  126140785410441412,
  126140787523338562,
  126140785410441412,
  126140787523338562,
  126140785410441412,
  126140787523338562,
  126140785410441412,
  126140787523338562,
  126140785410441412,
  126140787523338562,
  126114397165986112,
  54083191406600512,
  126114397164937792,
  18054396535120192,
  126114259760587072,
  54083054001201472,
  126114259759538752,
  18054259129721152,
  162143194184425792,
  162143194184425792,
  126114397165977922,
  54083191406592322,
  126114397164929602,
  18054396535112002,
  126114259760578882,
  54083054001193282,
  126114259759530562,
  18054259129712962,
  162143194184417602,
  162143194184417602,
  162143194150863172,
  162143194117325122,
  162143194150863172,
  162143194117325122,
  162143194150339012,
  162134400171786562,
  126114397132423492,
  54083191339499842,
  126114397131375172,
  18054396468019522,
  162143194150863172,
  162143194117325122,
  162143194150863172,
  162143194117325122,
  126114397132423492,
  54083191339499842,
  126114397131375172,
  18054396468019522,
  162143194150863172,
  162143194117325122,
  162143194150339012,
  162134400171786562,
  162143194150863172,
  162143194117325122,
  1157241458401344,
  1719916567470144,
  1157241458401344,
  1719916567470144,
  1148447512862784,
  1711122621931584,
  1157104053002304,
  1157104053002304,
  1148310107463744,
  1148310107463744,
  1157241458401344,
  1719916567470144,
  1720191344721984,
  1720191344721984,
  1720191344721984,
  1720191344721984,
  1711397399183424,
  1711397399183424,
  1720191344721984,
  1720191344721984,
  1711397399183424,
  1711397399183424,
  1720191344721984,
  1720191344721984,
  1720191344721984,
  1720191344721984,
  1720191344721984,
  1720191344721984,
  1711397399183424,
  1711397399183424,
  1720191344721984,
  1720191344721984,
  1711397399183424,
  1711397399183424,
  1720191344721984,
  1720191344721984,
  1720191311167554,
  1720191344705604,
  1720191311167554,
  1720191344705604,
  1711397365628994,
  1711397399167044,
  1720191311167554,
  1720191344705604,
  1711397365628994,
  1711397399167044,
  1720191311167554,
  1720191344705604,
  1720191311167554,
  1720191344705604,
  1720191311167554,
  1720191344705604,
  1711397365628994,
  1711397399167044,
  1720191311167554,
  1720191344705604,
  1711397365628994,
  1711397399167044,
  1720191311167554,
  1720191344705604,
  1719778994323524,
  594291404333124,
  1710985048784964,
  585497458794564,
  1719778994307144,
  31341484466244,
  1710985048768584,
  22547538927684,
  2282728947736644,
  2282728947736644,
  1157241457877184,
  1719916566945984,
  1157241457877184,
  1719916566945984,
  1148447512338624,
  1711122621407424,
  1157104052478144,
  1157104052478144,
  1148310106939584,
  1148310106939584,
  1157241457877184,
  1719916566945984,
  1720191344197824,
  1720191344197824,
  1720191344197824,
  1720191344197824,
  1711397398659264,
  1711397398659264,
  1720191344197824,
  1720191344197824,
  1711397398659264,
  1711397398659264,
  1720191344197824,
  1720191344197824,
  1720191344197824,
  1720191344197824,
  1720191344197824,
  1720191344197824,
  1711397398659264,
  1711397398659264,
  1720191344197824,
  1720191344197824,
  1711397398659264,
  1711397398659264,
  1720191344197824,
  1720191344197824,
  1720191310643394,
  1720191344181444,
  1720191310643394,
  1720191344181444,
  1711397365104834,
  1711397398642884,
  1720191310643394,
  1720191344181444,
  1711397365104834,
  1711397398642884,
  1720191310643394,
  1720191344181444,
  1720191310643394,
  1720191344181444,
  1720191310643394,
  1720191344181444,
  1711397365104834,
  1711397398642884,
  1720191310643394,
  1720191344181444,
  1711397365104834,
  1711397398642884,
  1720191310643394,
  1720191344181444,
  1719778993799364,
  594291403808964,
  1710985048260804,
  585497458270404,
  1719778993782984,
  31341483942084,
  1710985048244424,
  22547538403524,
  2282728947212484,
  2282728947212484,
  1157239310393664,
  1719912273027264,
  1157101904994624,
  1157099758559424,
  1157239310393664,
  1719912273027264,
  1720189196714304,
  1720187050279104,
  1720189196714304,
  1720187050279104,
  1720189196714304,
  1720187050279104,
  1720189196714304,
  1720187050279104,
  1720189196714304,
  1720187050279104,
  1720189196714304,
  1720187050279104,
  1720189196714304,
  1720187050279104]
def test_t2_bbbb_cert_3 : List Nat := [1720189196714304,
  1720187050279104,
  1720189196714304,
  1720187050279104,
  1720189196714304,
  1720187050279104,
  1720189163159874,
  1720187050262724,
  1720189163159874,
  1720187050262724,
  1720189163159874,
  1720187050262724,
  1720189163159874,
  1720187050262724,
  1720189163159874,
  1720187050262724,
  1720189163159874,
  1720187050262724,
  1720189163159874,
  1720187050262724,
  1720189163159874,
  1720187050262724,
  1720189163159874,
  1720187050262724,
  1720189163159874,
  1720187050262724,
  2282726799728964,
  2282724653293764,
  2282726799728964,
  2282724653293764,
  1719776846315844,
  594287109890244,
  2282726799720774,
  2282587247894724,
  1719776846299464,
  31337190023364,
  2282726799728964,
  2282724653293764,
  1157239310393664,
  1719912273027264,
  1157101904994624,
  1157099758559424,
  1157239310393664,
  1719912273027264,
  1720189196714304,
  1720187050279104,
  1720189196714304,
  1720187050279104,
  1720189196714304,
  1720187050279104,
  1720189196714304,
  1720187050279104,
  1720189196714304,
  1720187050279104,
  1720189196714304,
  1720187050279104,
  1720189196714304,
  1720187050279104,
  1720189196714304,
  1720187050279104,
  1720189196714304,
  1720187050279104,
  1720189196714304,
  1720187050279104,
  1720189163159874,
  1720187050262724,
  1720189163159874,
  1720187050262724,
  1720189163159874,
  1720187050262724,
  1720189163159874,
  1720187050262724,
  1720189163159874,
  1720187050262724,
  1720189163159874,
  1720187050262724,
  1720189163159874,
  1720187050262724,
  1720189163159874,
  1720187050262724,
  1720189163159874,
  1720187050262724,
  1720189163159874,
  1720187050262724,
  2282726799728964,
  2282724653293764,
  1719776846315844,
  594287109890244,
  2282726799728964,
  2282724653293764,
  1719776846299464,
  31337190023364,
  2282726799720774,
  2282587247894724,
  2282726799728964,
  2282724653293764,
  11530926443501199424,
  11530926443501199424,
  11530926443501191234,
  11530926443501191234,
  11530935237446737984,
  11530935237446737984,
  11530935237446729794,
  11530935237446729794,
  11530926168690401344,
  11530363493581332544,
  11530926168690393154,
  11530363493581324354,
  11530934962635939904,
  11530372287526871104,
  11530934962635931714,
  11530372287526862914,
  11531489256015667264,
  11531489256015667264,
  11531489256015659074,
  11531489256015659074,
  11531489256015667264,
  11531489256015667264,
  11531489256015659074,
  11531489256015659074,
  11530926443501199424,
  11530926443501199424,
  11530926443501191234,
  11530926443501191234,
  6920375118926192704,
  9225092365671997504,
  6920375118926184514,
  9225092365671989314,
  11530926168690401344,
  11530363493581332544,
  11530926168690393154,
  11530363493581324354,
  6920374844115394624,
  9224529415752130624,
  6920374844115386434,
  9224529415752122434,
  11531489256015667264,
  11531489256015667264,
  11531489256015659074,
  11531489256015659074,
  9225083159510261824,
  4614523315800514624,
  9225083159510253634,
  4614523315800506434,
  9225083159510261824,
  4614523315800514624,
  9225083159510253634,
  4614523315800506434,
  9225091953455800384,
  4614532109746053184,
  9225091953455792194,
  4614532109746044994,
  9225083159510261824,
  4614523315800514624,
  9225083159510253634,
  4614523315800506434,
  9225091953455800384,
  4614532109746053184,
  9225091953455792194,
  4614532109746044994,
  9225083159510261824,
  4614523315800514624,
  9225083159510253634,
  4614523315800506434,
  9225083159510261824,
  4614523315800514624,
  9225083159510253634,
  4614523315800506434,
  9225091953455800384,
  4614532109746053184,
  9225091953455792194,
  4614532109746044994,
  9225083159510261824,
  4614523315800514624,
  9225083159510253634,
  4614523315800506434,
  6919803100249989184,
  4613960503286046784,
  6919803100249980994,
  4613960503286038594,
  9225083159510261824,
  4614523315800514624,
  9225083159510253634,
  4614523315800506434,
  9225083159510261824,
  4614523315800514624,
  9225083159510253634,
  4614523315800506434,
  6919811894195527744,
  4613969297231585344,
  6919811894195519554,
  4613969297231577154,
  9225083159510261824,
  4614523315800514624,
  9225083159510253634,
  4614523315800506434,
  9225083159510261824,
  4614523315800514624,
  9225083159510253634,
  4614523315800506434,
  6919811894195527744,
  4613969297231585344,
  6919811894195519554,
  4613969297231577154,
  9225083159510261824,
  4614523315800514624,
  9225083159510253634,
  4614523315800506434,
  6919811894195527744,
  4613969297231585344,
  6919811894195519554,
  4613969297231577154,
  9225083159510261824,
  4614523315800514624,
  9225083159510253634,
  4614523315800506434,
  6918677475221053504,
  4613397553366179904,
  6918686269166592064,
  4613406347311718464,
  6918677475221053504,
  4613397553366179904,
  6918677475221053504,
  4613397553366179904,
  4613406347311194304,
  6918686269166067904,
  4613406347311718464,
  6918686269166592064,
  4613406347311194304,
  6918686269166067904,
  6918677475221053504,
  4613397553366179904,
  6918677475220529344,
  4613397553365655744,
  6918677475221053504,
  4613397553366179904,
  4613406347311194304,
  6918686269166067904,
  127811914335789120,
  91238032246317120,
  127811914335780930,
  91238032246308930,
  127811914335789120,
  91238032246317120,
  127811914335780930,
  91238032246308930,
  127811914335789120,
  91238032246317120,
  127811914335780930,
  91238032246308930,
  127811914335789120,
  91238032246317120,
  127811914335780930,
  91238032246308930,
  127811914335789120,
  91238032246317120,
  127811914335780930,
  91238032246308930,
  127811914335789120,
  91238032246317120,
  127811914335789120,
  91238032246317120,
  127811914335789120,
  91238032246317120,
  127811914335780930,
  91238032246308930,
  127811914335264960,
  91238032245792960,
  127811914335256770,
  91238032245784770,
  127811914335789120,
  91238032246317120,
  127811914335780930,
  91238032246308930,
  127811914335264960,
  91238032245792960,
  127811914335256770,
  91238032245784770,
  91229100895379520,
  91229100895379520,
  91229100895371330,
  91229100895371330,
  91229100894855360,
  91229100894855360,
  91229100894847170,
  91229100894847170,
  127811914335789120,
  91238032246317120,
  127811914335780930,
  91238032246308930,
  127811914335264960,
  91238032245792960,
  127811914335256770,
  91238032245784770,
  127811914335789120,
  91238032246317120,
  127811914335780930,
  91238032246308930,
  127811914335264960,
  91238032245792960,
  127811914335256770,
  91238032245784770,
  127811914335789120,
  91238032246317120,
  127811914335780930,
  91238032246308930,
  127811914335264960,
  91238032245792960,
  127811914335256770,
  91238032245784770,
  127811914335789120,
  91238032246317120,
  127811914335264960,
  91238032245792960,
  127811914335789120,
  91238032246317120,
  127811914335264960,
  91238032245792960,
  127811914335789120,
  91238032246317120,
  127811914335264960,
  91238032245792960,
  127811914335789120,
  91238032246317120,
  127811914335264960,
  91238032245792960,
  127811914335789120,
  91238032246317120,
  127811914335264960,
  91238032245792960,
  127249239226720320,
  91800707355385920,
  127249239226712130,
  91800707355377730,
  127249239226720320,
  91800707355385920,
  127249239226712130,
  91800707355377730,
  127249239226720320,
  91800707355385920,
  127249239226712130,
  91800707355377730,
  127249101821321280,
  91237894840918080,
  127249101821313090,
  91237894840909890,
  127249101821321280,
  91237894840918080,
  127249101821313090,
  91237894840909890,
  127249239226720320,
  91800707355385920,
  127249239226712130,
  91800707355377730,
  127249101821321280,
  91237894840918080,
  127249101821313090,
  91237894840909890,
  127249101821321280,
  91237894840918080,
  127249101821313090,
  91237894840909890,
  127249101821321280,
  91237894840918080,
  127249101821313090,
  91237894840909890,
  127249239226720320,
  91800707355385920,
  127249239226712130,
  91800707355377730,
  127249239226196160,
  91800707354861760,
  127249239226187970,
  91800707354853570,
  91229238300778560,
  91791913409847360,
  91229238300770370,
  91791913409839170,
  91229238300254400,
  91791913409323200,
  91229238300246210,
  91791913409315010,
  127249101821321280,
  91237894840918080,
  127249101821313090,
  91237894840909890,
  127249101820797120,
  91237894840393920,
  127249101820788930,
  91237894840385730,
  91229100895379520,
  91229100895379520,
  91229100895371330,
  91229100895371330,
  91229100894855360,
  91229100894855360,
  91229100894847170,
  91229100894847170,
  127249239226720320,
  91800707355385920]
def test_t2_bbbb_cert_4 : List Nat := [127249239226712130,
  91800707355377730,
  127249239226196160,
  91800707354861760,
  127249239226187970,
  91800707354853570,
  127249101821321280,
  91237894840918080,
  127249101821313090,
  91237894840909890,
  127249239226196160,
  91800707354861760,
  127249239226187970,
  91800707354853570,
  127249239226720320,
  91800707355385920,
  127249239226712130,
  91800707355377730,
  127249239226196160,
  91800707354861760,
  127249239226187970,
  91800707354853570,
  127249101821321280,
  91237894840918080,
  127249101821313090,
  91237894840909890,
  127249101820797120,
  91237894840393920,
  127249101820788930,
  91237894840385730,
  91229100895379520,
  91229100895379520,
  91229100895371330,
  91229100895371330,
  91229100894855360,
  91229100894855360,
  91229100894847170,
  91229100894847170,
  127249101821321280,
  91237894840918080,
  127249101821313090,
  91237894840909890,
  127249239226196160,
  91800707354861760,
  127249239226187970,
  91800707354853570,
  91791913409847360,
  91229238300778560,
  91791913409839170,
  91229238300770370,
  91791913409323200,
  91229238300254400,
  91791913409315010,
  91229238300246210,
  91791913409847360,
  91229238300778560,
  91791913409839170,
  91229238300770370,
  91791913409323200,
  91229238300254400,
  91791913409315010,
  91229238300246210,
  91237894840918080,
  127249101821321280,
  91237894840909890,
  127249101821313090,
  91237894840393920,
  127249101820797120,
  91237894840385730,
  127249101820788930,
  91800707355385920,
  127249239226720320,
  91800707355377730,
  127249239226712130,
  91800707354861760,
  127249239226196160,
  91800707354853570,
  127249239226187970,
  91791913409847360,
  91229238300778560,
  91791913409839170,
  91229238300770370,
  91791913409323200,
  91229238300254400,
  91791913409315010,
  91229238300246210,
  91800707355385920,
  127249239226720320,
  91800707354861760,
  127249239226196160,
  91800707355385920,
  127249239226720320,
  91800707354861760,
  127249239226196160,
  91791913409847360,
  91229238300778560,
  91791913409323200,
  91229238300254400,
  91229100895379520,
  91229100895379520,
  91229100895371330,
  91229100895371330,
  91229100894855360,
  91229100894855360,
  91229100894847170,
  91229100894847170,
  91237894840918080,
  127249101821321280,
  91237894840909890,
  127249101821313090,
  91237894840393920,
  127249101820797120,
  91237894840385730,
  127249101820788930,
  91791913409847360,
  91229238300778560,
  91791913409839170,
  91229238300770370,
  91791913409323200,
  91229238300254400,
  91791913409315010,
  91229238300246210,
  91800707355385920,
  127249239226720320,
  91800707355377730,
  127249239226712130,
  91800707354861760,
  127249239226196160,
  91800707354853570,
  127249239226187970,
  91791913409847360,
  91229238300778560,
  91791913409839170,
  91229238300770370,
  91791913409323200,
  91229238300254400,
  91791913409315010,
  91229238300246210,
  91791913409847360,
  91229238300778560,
  91791913409323200,
  91229238300254400,
  91791913409847360,
  91229238300778560,
  91791913409323200,
  91229238300254400,
  91800707355385920,
  127249239226720320,
  91800707354861760,
  127249239226196160,
  91791913409847360,
  91229238300778560,
  91791913409323200,
  91229238300254400,
  91800707355385920,
  127249239226720320,
  91800707354861760,
  127249239226196160,
  91791913409847360,
  91229238300778560,
  91791913409323200,
  91229238300254400,
  91229238300778560,
  91791913409847360,
  91229238300770370,
  91791913409839170,
  91229238300254400,
  91791913409323200,
  91229238300246210,
  91791913409315010,
  91229238300778560,
  91791913409847360,
  91229238300770370,
  91791913409839170,
  91229238300254400,
  91791913409323200,
  91229238300246210,
  91791913409315010,
  91238032246317120,
  127811914335789120,
  91238032246308930,
  127811914335780930,
  91238032245792960,
  127811914335264960,
  91238032245784770,
  127811914335256770,
  91229100895379520,
  91229100895379520,
  91229100895371330,
  91229100895371330,
  91229100894855360,
  91229100894855360,
  91229100894847170,
  91229100894847170,
  91237894840918080,
  127249101821321280,
  91237894840909890,
  127249101821313090,
  91237894840393920,
  127249101820797120,
  91237894840385730,
  127249101820788930,
  91229238300778560,
  91791913409847360,
  91229238300770370,
  91791913409839170,
  91229238300254400,
  91791913409323200,
  91229238300246210,
  91791913409315010,
  91229100895379520,
  91229100895379520,
  91229100895371330,
  91229100895371330,
  91229100894855360,
  91229100894855360,
  91229100894847170,
  91229100894847170,
  91238032246317120,
  127811914335789120,
  91238032246308930,
  127811914335780930,
  91238032245792960,
  127811914335264960,
  91238032245784770,
  127811914335256770,
  91229100895379520,
  91229100895379520,
  91229100895371330,
  91229100895371330,
  91229100894855360,
  91229100894855360,
  91229100894847170,
  91229100894847170,
  91237894840918080,
  127249101821321280,
  91237894840909890,
  127249101821313090,
  91237894840393920,
  127249101820797120,
  91237894840385730,
  127249101820788930,
  91229100895379520,
  91229100895379520,
  91229100895371330,
  91229100895371330,
  91229100894855360,
  91229100894855360,
  91229100894847170,
  91229100894847170,
  91229238300778560,
  91791913409847360,
  91229238300770370,
  91791913409839170,
  91229238300254400,
  91791913409323200,
  91229238300246210,
  91791913409315010,
  91238032246317120,
  127811914335789120,
  91238032246308930,
  127811914335780930,
  91238032245792960,
  127811914335264960,
  91238032245784770,
  127811914335256770,
  91229100895379520,
  91229100895379520,
  91229100895371330,
  91229100895371330,
  91229100894855360,
  91229100894855360,
  91229100894847170,
  91229100894847170,
  91237894840918080,
  127249101821321280,
  91237894840909890,
  127249101821313090,
  91237894840393920,
  127249101820797120,
  91237894840385730,
  127249101820788930,
  91229238300778560,
  91791913409847360,
  91229238300770370,
  91791913409839170,
  91229238300254400,
  91791913409323200,
  91229238300246210,
  91791913409315010,
  91229238300778560,
  91791913409847360,
  91229238300770370,
  91791913409839170,
  91229238300254400,
  91791913409323200,
  91229238300246210,
  91791913409315010,
  91229238300778560,
  91791913409847360,
  91229238300770370,
  91791913409839170,
  91229238300254400,
  91791913409323200,
  91229238300246210,
  91791913409315010,
  91238032246317120,
  127811914335789120,
  91238032246308930,
  127811914335780930,
  91238032245792960,
  127811914335264960,
  91238032245784770,
  127811914335256770,
  91229100895379520,
  91229100895379520,
  91229100895371330,
  91229100895371330,
  91229100894855360,
  91229100894855360,
  91229100894847170,
  91229100894847170,
  91237894840918080,
  127249101821321280,
  91237894840909890,
  127249101821313090,
  91237894840393920,
  127249101820797120,
  91237894840385730,
  127249101820788930,
  91229238300778560,
  91791913409847360,
  91229238300770370,
  91791913409839170,
  91229238300254400,
  91791913409323200,
  91229238300246210,
  91791913409315010,
  811782862445067640896,
  811746851238087237696,
  811782880032958718016,
  811782880032958718016,
  811782862307662241856,
  811746851100681838656,
  811782879895553318976,
  811782879895553318976,
  811818891239939121216,
  811818891239939121216,
  811818891102533722176,
  811818891102533722176,
  811818891102533713986,
  811818891102533713986,
  516707014859752742976,
  664172907444503846976,
  516707014859752734786,
  664172907444503838786,
  516707032447643820096,
  664208936239375327296,
  516707032447643811906,
  664208936239375319106,
  811782862307662241856,
  811746851100681838656,
  811782862307662233666,
  811746851100681830466,
  811782879895553318976,
  811782879895553318976,
  811782879895553310786,
  811782879895553310786,
  811818891102533722176,
  811818891102533722176,
  811818891102533713986,
  811818891102533713986,
  516707014859752742976,
  664172907444503846976,
  516707032447643820096,
  664208936239375327296,
  516707014722347343936,
  664172907307098447936,
  516707032310238421056,
  664208936101969928256,
  811818891239939121216,
  811818891239939121216,
  664208909857538711616,
  369133079860114890816,
  664208909857538187456,
  369133079860114366656,
  664208909857538711616,
  369133079860114890816,
  664208909857538187456,
  369133079860114366656,
  664208909857538711616,
  369133079860114890816,
  664208909857538187456,
  369133079860114366656,
  664208909720133312576,
  369133079722709491776,
  664208909720132788416,
  369133079722708967616,
  664208909720133312576,
  369133079722709491776]
def test_t2_bbbb_cert_5 : List Nat := [664208909720132788416,
  369133079722708967616,
  664208909857538711616,
  369133079860114890816,
  664208909857538187456,
  369133079860114366656,
  516670985927475863616,
  369097059721783550016,
  516670985927475855426,
  369097059721783541826,
  516670985927475339456,
  369097059721783025856,
  516670985927475331266,
  369097059721783017666,
  516670986064881262656,
  369097059859188949056,
  516670986064881254466,
  369097059859188940866,
  516670986064880738496,
  369097059859188424896,
  516670986064880730306,
  369097059859188416706,
  664208909720133312576,
  369133079722709491776,
  664208909720133304386,
  369133079722709483586,
  664208909720132788416,
  369133079722708967616,
  664208909720132780226,
  369133079722708959426,
  664208909720133312576,
  369133079722709491776,
  664208909720133304386,
  369133079722709483586,
  664208909720132788416,
  369133079722708967616,
  664208909720132780226,
  369133079722708959426,
  664208909720133312576,
  369133079722709491776,
  664208909720133304386,
  369133079722709483586,
  664208909720132788416,
  369133079722708967616,
  664208909720132780226,
  369133079722708959426,
  516670986064881262656,
  369097059859188949056,
  516670986064880738496,
  369097059859188424896,
  516670985927475863616,
  369097059721783550016,
  516670985927475339456,
  369097059721783025856,
  664208909857538711616,
  369133079860114890816,
  664208909857538187456,
  369133079860114366656,
  516598946063029379136,
  369061031064317468736,
  516598945925623980096,
  369061030926912069696,
  516598946063029379136,
  369061031064317468736,
  369061031064317468736,
  516598946063029379136,
  516598945925623971906,
  369061030926912061506,
  369061031064317468736,
  516598946063029379136,
  369061031064317460546,
  516598946063029370946,
  516598945925623980096,
  369061030926912069696,
  516598945925623971906,
  369061030926912061506,
  369061031064317468736,
  516598946063029379136,
  516598945925623971906,
  369061030926912061506,
  2274209947197504,
  2274209947197504,
  2274209947197504,
  2274209947197504,
  1711397432729664,
  1711397432729664,
  2274072541798464,
  2274072541798464,
  1711122621931584,
  1148447512862784,
  2274209947197504,
  2274209947197504,
  1711122621931584,
  1148447512862784,
  1711122621923394,
  1148447512854594,
  1711122621931584,
  1148447512862784,
  1711122621923394,
  1148447512854594,
  1711122621931584,
  1148447512862784,
  1711122621923394,
  1148447512854594,
  1711122621931584,
  1148447512862784,
  1711122621923394,
  1148447512854594,
  1711122621931584,
  1148447512862784,
  1711122621923394,
  1148447512854594,
  1148447512862784,
  1711122621931584,
  1148310107463744,
  1148310107463744,
  1148447512862784,
  1711122621931584,
  1711397432729664,
  1711397432729664,
  1711397432205504,
  1711397432205504,
  1720191378268224,
  1720191378268224,
  1720191377744064,
  1720191377744064,
  1711122621931584,
  1148447512862784,
  1711122621407424,
  1148447512338624,
  1719916567470144,
  1157241458401344,
  1719916566945984,
  1157241457877184,
  2274209947197504,
  2274209947197504,
  2274209946673344,
  2274209946673344,
  1711122621931584,
  1148447512862784,
  1711122621923394,
  1148447512854594,
  1711122621407424,
  1148447512338624,
  1711122621399234,
  1148447512330434,
  1711122621931584,
  1148447512862784,
  1711122621923394,
  1148447512854594,
  1711122621407424,
  1148447512338624,
  1711122621399234,
  1148447512330434,
  1719916567470144,
  1157241458401344,
  1719916567461954,
  1157241458393154,
  1719916566945984,
  1157241457877184,
  1719916566937794,
  1157241457868994,
  1711122621931584,
  1148447512862784,
  1711122621923394,
  1148447512854594,
  1711122621407424,
  1148447512338624,
  1711122621399234,
  1148447512330434,
  1719916567470144,
  1157241458401344,
  1719916567461954,
  1157241458393154,
  1719916566945984,
  1157241457877184,
  1719916566937794,
  1157241457868994,
  1711122621931584,
  1148447512862784,
  1711122621923394,
  1148447512854594,
  1711122621407424,
  1148447512338624,
  1711122621399234,
  1148447512330434,
  1148447512862784,
  1711122621931584,
  1148447512338624,
  1711122621407424,
  1148447512862784,
  1711122621931584,
  1148447512338624,
  1711122621407424,
  1157241458401344,
  1719916567470144,
  1157241457877184,
  1719916566945984,
  1148310107463744,
  1148310107463744,
  1148310106939584,
  1148310106939584,
  1157104053002304,
  1157104053002304,
  1157104052478144,
  1157104052478144,
  1148447512862784,
  1711122621931584,
  1148447512338624,
  1711122621407424,
  162151859313451072,
  162151859313451072,
  126123064441970752,
  90111857461567552,
  126140652333047872,
  126140652333047872,
  162151859313451072,
  162151859313451072,
  162160653258989632,
  162160653258989632,
  162151859313451072,
  162151859313451072,
  126123201847369792,
  90111994866966592,
  126123201847361602,
  90111994866958402,
  126140789738446912,
  126140789738446912,
  126140789738438722,
  126140789738438722,
  126123064441970752,
  90111857461567552,
  126123064441962562,
  90111857461559362,
  126140652333047872,
  126140652333047872,
  126140652333039682,
  126140652333039682,
  162151996718850112,
  162151996718850112,
  162151996718841922,
  162151996718841922,
  126123064441970752,
  90111857461567552,
  126123064441446592,
  90111857461043392,
  126123064441970752,
  90111857461567552,
  126123064441446592,
  90111857461043392,
  126123064441970752,
  90111857461567552,
  126123064441446592,
  90111857461043392,
  126123064441970752,
  90111857461567552,
  126123064441446592,
  90111857461043392,
  126123064441970752,
  90111857461567552,
  126123064441446592,
  90111857461043392,
  126123201847369792,
  90111994866966592,
  126123201847361602,
  90111994866958402,
  126123201846845632,
  90111994866442432,
  126123201846837442,
  90111994866434242,
  126123201847369792,
  90111994866966592,
  126123201847361602,
  90111994866958402,
  126123201846845632,
  90111994866442432,
  126123201846837442,
  90111994866434242,
  126123201847369792,
  90111994866966592,
  126123201847361602,
  90111994866958402,
  126123201846845632,
  90111994866442432,
  126123201846837442,
  90111994866434242,
  126123064441970752,
  90111857461567552,
  126123064441962562,
  90111857461559362,
  126123064441446592,
  90111857461043392,
  126123064441438402,
  90111857461035202,
  126123064441970752,
  90111857461567552,
  126123064441962562,
  90111857461559362,
  126123064441446592,
  90111857461043392,
  126123064441438402,
  90111857461035202,
  126123201847369792,
  90111994866966592,
  126123201847361602,
  90111994866958402,
  126123201846845632,
  90111994866442432,
  126123201846837442,
  90111994866434242,
  90103063516028992,
  90103063516028992,
  90111857461567552,
  126123064441970752,
  90103063516028992,
  90103063516028992,
  90103200921428032,
  90103200921428032,
  90103200921419842,
  90103200921419842,
  90103200921428032,
  90103200921428032,
  90103200921419842,
  90103200921419842,
  90111994866966592,
  126123201847369792,
  90111994866958402,
  126123201847361602,
  90103063516028992,
  90103063516028992,
  90103063516020802,
  90103063516020802,
  90111857461567552,
  126123064441970752,
  90111857461559362,
  126123064441962562,
  90103200921428032,
  90103200921428032,
  90103200921419842,
  90103200921419842]

/-- Check test_t2_bbbb. C83 -/
theorem test_t2_bbbb : isZeroSpin kinds [aᵥ, bᵥ, iₒ, jₒ] 4 [true, true, true, true]
    (residQf1 ++ (Prog.scale (1/4) (Prog.cap 4 71 (Prog.outs [4, 5, 0, 1, 2, 3, 6, 7] (Prog.thin split_lin_t4 (linT3))))))
    (Prog.scale (-1) (test_t2_bbbb))
    (test_t2_bbbb_cert_0 ++ (test_t2_bbbb_cert_1 ++ (test_t2_bbbb_cert_2 ++ (test_t2_bbbb_cert_3 ++ (test_t2_bbbb_cert_4 ++ (test_t2_bbbb_cert_5)))))) = true := by decide +kernel

def pertQf_t4_spin_cert_0 : List Nat := [31204079050816,
  31204079050816,
  31204079050816,
  31204079050816,
  22410133512256,
  22410133512256,
  31066673651776,
  31066673651776,
  22272728113216,
  22272728113216,
  31204079050816,
  31204079050816,
  31204079050816,
  31204079050816,
  31204079050816,
  31204079050816,
  22410133512256,
  22410133512256,
  31066673651776,
  31066673651776,
  22272728113216,
  22272728113216,
  31204079050816,
  31204079050816,
  31204078526656,
  31204078526656,
  31204078526656,
  31204078526656,
  22410132988096,
  22410132988096,
  31066673127616,
  31066673127616,
  22272727589056,
  22272727589056,
  31204078526656,
  31204078526656,
  31204079042626,
  31204079042626,
  31204079042626,
  31204079042626,
  22410133504066,
  22410133504066,
  31066673643586,
  31066673643586,
  22272728105026,
  22272728105026,
  31204079042626,
  31204079042626,
  31204078518466,
  31204078518466,
  31204078518466,
  31204078518466,
  22410132979906,
  22410132979906,
  31066673119426,
  31066673119426,
  22272727580866,
  22272727580866,
  31204078518466,
  31204078518466,
  31204079050816,
  31204079050816,
  31204079050816,
  31204079050816,
  22410133512256,
  22410133512256,
  31066673651776,
  31066673651776,
  22272728113216,
  22272728113216,
  31204079050816,
  31204079050816,
  13195248165316,
  4538708541766,
  13195248165316,
  4538708541766,
  13332653564356,
  4538708549956,
  4401302626756,
  4538708017606,
  4538708025796,
  4538708025796,
  13195248165316,
  4538708541766,
  13195248165316,
  4538708541766,
  13195248165316,
  4538708541766,
  13332653564356,
  4538708549956,
  4401302626756,
  4538708017606,
  4538708025796,
  4538708025796,
  13195248165316,
  4538708541766,
  13195248689476,
  13332654080326,
  13195248689476,
  13332654080326,
  13332654088516,
  13332654088516,
  4401303150916,
  13332653556166,
  4538708549956,
  13332653564356,
  13195248689476,
  13332654080326,
  13195248157126,
  4401303142726,
  13195248157126,
  4401303142726,
  13332653556166,
  4401303150916,
  4401302618566,
  4401302618566,
  4538708017606,
  4401302626756,
  13195248157126,
  4401303142726,
  13195248681286,
  13195248681286,
  13195248681286,
  13195248681286,
  13332654080326,
  13195248689476,
  4401303142726,
  13195248157126,
  4538708541766,
  13195248165316,
  13195248681286,
  13195248681286,
  13195248165316,
  4538708541766,
  13195248165316,
  4538708541766,
  13332653564356,
  4538708549956,
  4401302626756,
  4538708017606,
  4538708025796,
  4538708025796,
  13195248165316,
  4538708541766]

/-- Check pertQf_t4_spin. C83 -/
theorem pertQf_t4_spin : isZeroSpin kinds [] 16 []
    (pertT4)
    (Prog.scale (-1) (si_energy_pertQf_t4))
    (pertQf_t4_spin_cert_0) = true := by decide +kernel

end Verif.Cert
