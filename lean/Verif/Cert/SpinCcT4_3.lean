import Verif.Ein.Spin
import Verif.Cert.Thin
import Verif.Gen.SiCcdqT4_3

/-! Written by `/verif/tools/gen.py`. Checks of einsum programs. -/

set_option maxRecDepth 100000

namespace Verif.Cert

open Verif.Ein Verif.Ein.N


open Verif.Gen

def ccdq_t4_abbbabbb_cert_0 : List Nat := [2283003892736064,
  2283003892736064,
  2283003892727874,
  2283003892727874,
  2283003859173444,
  2283003825635394,
  2282866420219974,
  2282591609438274,
  823350366879766814784,
  823350366879766814784,
  821045086820506542144,
  821045086820506542144,
  673507163027849093184,
  673507163027849093184,
  823350366879766806594,
  823350366879766806594,
  675812443087109357634,
  675812443087109357634,
  823350366879766806594,
  823350366879766806594,
  823350366879733252164,
  823350366879699714114,
  675812443087075803204,
  675812443087042265154,
  823350366879733252164,
  823350366879699714114,
  823350366742294298694,
  823350366467483516994,
  675812442949636849734,
  675812442674826068034,
  823350366742294298694,
  823350366467483516994,
  162160790664388672,
  162160790664388672,
  162160790663864512,
  162160790663864512,
  162160788516380992,
  162160786369945792,
  162151992423358912,
  162134404533330112,
  823350366879766814784,
  823350366879766814784,
  675812443087109365824,
  675812443087109365824,
  673507163027849093184,
  673507163027849093184,
  823350366879766290624,
  823350366879766290624,
  821045086820506017984,
  821045086820506017984,
  823350366879766290624,
  823350366879766290624,
  823350366877618807104,
  823350366875472371904,
  821045086818358534464,
  821045086816212099264,
  823350366877618807104,
  823350366875472371904,
  823350358081525785024,
  823350340493635756224,
  821045078022265512384,
  821045060434375483584,
  823350358081525785024,
  823350340493635756224,
  823350366879766814784,
  823350366879766814784,
  823350366879733268544,
  823350366879733268544,
  823350366742294323264,
  823350366604922470464,
  823350366879699714114,
  823350366879733252164,
  675812443087042265154,
  675812443087075803204,
  823350366742260768834,
  823350366604922454084,
  675812442949603319874,
  675812442812265005124,
  823350366879699705924,
  823350366879699705924,
  675812443087042256964,
  675812443087042256964,
  823350366742260752454,
  823350366467483508804,
  675812442949603303494,
  675812442674826059844,
  823350366604821815364,
  823350366604821815364,
  675812442812164366404,
  675812442812164366404,
  823350366604821807174,
  823350366467416416324,
  675812442812164358214,
  675812442674758967364,
  823350366877619855424,
  823350366877619855424,
  823350366877586309184,
  823350366877586309184,
  823350366740147363904,
  823350366602775511104,
  823350366877552754754,
  823350366877586292804,
  675812443084895305794,
  675812443084928843844,
  823350366740113809474,
  823350366602775494724,
  675812442947456360514,
  675812442810118045764,
  823350366877552746564,
  823350366877552746564,
  675812443084895297604,
  675812443084895297604,
  823350366740113793094,
  823350366465336549444,
  675812442947456344134,
  675812442672679100484,
  823350366602674856004,
  823350366602674856004,
  675812442810017407044,
  675812442810017407044,
  823350366602674847814,
  823350366465269456964,
  675812442810017398854,
  675812442672612008004,
  823350358081527357504,
  823350349289728778304,
  823350358081493811264,
  823350349289695232064,
  823350357944054865984,
  823350349014884433984,
  823350358081460256834,
  823350349289695215684,
  675812434288802807874,
  675812425497037766724,
  823350357944021311554,
  823350349014884417604,
  675812434151363862594,
  675812425222226968644,
  823350358081460248644,
  823350349289661669444,
  675812434288802799684,
  675812425497004220484,
  823350357944021295174,
  823350348877445472324,
  675812434151363846214,
  675812425084788023364,
  823350357806582358084,
  823350349014783778884,
  675812434013924909124,
  675812425222126329924,
  823350357806582349894,
  823350348877378379844,
  675812434013924900934,
  675812425084720930884,
  821045086816212091074,
  821045086818358526274,
  821045086816178536644,
  821045086818291433794,
  821045086678739583174,
  821045086406075236674,
  821045086816144998594,
  821045086818324971844,
  673507163023487549634,
  673507163025667522884,
  821045086678706053314,
  821045086543514173764,
  673507162886048604354,
  673507162750856724804,
  821045086816144990404,
  821045086818291425604,
  673507163023487541444,
  673507163025633976644,
  821045086678706036934,
  821045086406075228484,
  673507162886048587974,
  673507162613417779524,
  821045086541267099844,
  821045086543413535044,
  673507162748609650884,
  673507162750756086084,
  821045086541267091654,
  821045086406008136004,
  673507162748609642694,
  673507162613350687044,
  821045078020119593154,
  821045069230467449154,
  821045078020086038724,
  821045069230400356674,
  821045077882647085254,
  821045068818184159554,
  821045078020052500674,
  821045069230433894724,
  673507154227395051714,
  673507145437776445764,
  821045077882613555394,
  821045068955623096644,
  673507154089956106434,
  673507145162965647684,
  821045078020052492484,
  821045069230400348484,
  673507154227395043524,
  673507145437742899524,
  821045077882613539014,
  821045068818184151364,
  673507154089956090054,
  673507145025526702404,
  821045077745174601924,
  821045068955522457924,
  673507153952517152964,
  673507145162865008964,
  821045077745174593734,
  821045068818117058884,
  673507153952517144774,
  673507145025459609924,
  821045069224026571074,
  821045069224026571074,
  821045069223993016644,
  821045069223959478594,
  821045069086554063174,
  821045068811743281474,
  821045069223959478594,
  821045069223993016644,
  673507145431302029634,
  673507145431335567684,
  821045069086520533314,
  821045068949182218564,
  673507145293863084354,
  673507145156524769604,
  821045069223959470404,
  821045069223959470404,
  673507145431302021444,
  673507145431302021444,
  821045069086520516934,
  821045068811743273284,
  673507145293863067974,
  673507145019085824324,
  821045068949081579844,
  821045068949081579844,
  673507145156424130884,
  673507145156424130884,
  821045068949081571654,
  821045068811676180804,
  673507145156424122694,
  673507145019018731844,
  11531498049961205824,
  11531498049961205824,
  11531498049927659584,
  11531498049927659584,
  11531497912488714304,
  11531497775116861504,
  11531498049894105154,
  11531498049927643204,
  11531497912455159874,
  11531497775116845124,
  11531498049894096964,
  11531498049894096964,
  11531497912455143494,
  11531497637677899844,
  11531497775016206404,
  11531497775016206404,
  11531497775016198214,
  11531497637610807364,
  11531498047814246464,
  11531498047814246464,
  11531498047780700224,
  11531498047780700224,
  11531497910341754944,
  11531497772969902144,
  11531498047747145794,
  11531498047780683844,
  11531497910308200514,
  11531497772969885764,
  11531498047747137604,
  11531498047747137604,
  11531497910308184134,
  11531497635530940484,
  11531497772869247044,
  11531497772869247044,
  11531497772869238854,
  11531497635463848004,
  11531489251721748544,
  11531480459923169344,
  11531489251688202304,
  11531480459889623104,
  11531489114249257024,
  11531480185078825024,
  11531489251654647874,
  11531480459889606724,
  11531489114215702594,
  11531480185078808644,
  11531489251654639684,
  11531480459856060484,
  11531489114215686214,
  11531480047639863364,
  11531488976776749124,
  11531480184978169924,
  11531488976776740934,
  11531480047572770884,
  9226217986406482114,
  9226217988552917314,
  9226217986372927684,
  9226217988485824834,
  9226217848933974214,
  9226217576269627714,
  9226217986339389634,
  9226217988519362884,
  9226217848900444354,
  9226217713708564804,
  9226217986339381444,
  9226217988485816644,
  9226217848900427974,
  9226217576269619524,
  9226217711461490884,
  9226217713607926084,
  9226217711461482694,
  9226217576202527044,
  9226209190313984194,
  9226200400661840194,
  9226209190280429764,
  9226200400594747714,
  9226209052841476294,
  9226199988378550594,
  9226209190246891714,
  9226200400628285764,
  9226209052807946434,
  9226200125817487684,
  9226209190246883524,
  9226200400594739524,
  9226209052807930054,
  9226199988378542404,
  9226208915368992964,
  9226200125716848964,
  9226208915368984774,
  9226199988311449924,
  9226200394220962114,
  9226200394220962114,
  9226200394187407684,
  9226200394153869634,
  9226200256748454214,
  9226199981937672514,
  9226200394153869634,
  9226200394187407684,
  9226200256714924354,
  9226200119376609604,
  9226200394153861444,
  9226200394153861444,
  9226200256714907974,
  9226199981937664324,
  9226200119275970884,
  9226200119275970884,
  9226200119275962694,
  9226199981870571844,
  673507163027849093184,
  673507163027849093184,
  823350366879766814784,
  823350366879766814784,
  673507162890443694144,
  673507162890443694144,
  823350366742361415744,
  823350366742361415744,
  673507162753004748864,
  673507162890376601664,
  823350366604922470464,
  823350366742294323264,
  821045086820506533954,
  821045086820506533954,
  823350366879766806594,
  823350366879766806594,
  821045086683101134914,
  821045086683101134914,
  823350366742361407554,
  823350366742361407554,
  821045086820472979524,
  821045086820439441474,
  823350366879733252164,
  823350366879699714114,
  821045086683034026054,
  821045086408223244354,
  823350366742294298694,
  823350366467483516994,
  821045086545662181444,
  821045086683000496194,
  823350366604922454084,
  823350366742260768834,
  821045086545628627014,
  821045086408189698114,
  823350366604888899654,
  823350366467449970754,
  675812442674826068034,
  675812442949636849734,
  675812442674826059844,
  675812442949603303494,
  675812442674792505414,
  675812442674792505414,
  673507154233903554624,
  673507154233903554624,
  675812434293163827264,
  675812434293163827264,
  673507154096498155584,
  673507154096498155584]
def ccdq_t4_abbbabbb_cert_1 : List Nat := [675812434155758428224,
  675812434155758428224,
  673507153959059210304,
  673507154096431063104,
  675812434018319482944,
  675812434155691335744,
  673507154233903546434,
  673507154233903546434,
  823350358085821268034,
  823350358085821268034,
  673507154096498147394,
  673507154096498147394,
  823350357948415868994,
  823350357948415868994,
  673507154233869992004,
  673507154233836453954,
  823350358085787713604,
  823350358085754175554,
  673507154096431038534,
  673507153821620256834,
  823350357948348760134,
  823350357673537978434,
  673507153959059193924,
  673507154096397508674,
  823350357810976915524,
  823350357948315230274,
  673507153959025639494,
  673507153821586710594,
  823350357810943361094,
  823350357673504432194,
  675812433880880529474,
  675812434155691311174,
  675812433880880521284,
  675812434155657764934,
  675812433880846966854,
  675812433880846966854,
  673507163025702133824,
  673507163025702133824,
  823350366877619855424,
  823350366877619855424,
  673507162888296734784,
  673507162888296734784,
  823350366740214456384,
  823350366740214456384,
  673507162750857789504,
  673507162888229642304,
  823350366602775511104,
  823350366740147363904,
  821045086818359574594,
  821045086818359574594,
  823350366877619847234,
  823350366877619847234,
  821045086680954175554,
  821045086680954175554,
  823350366740214448194,
  823350366740214448194,
  821045086818326020164,
  821045086818292482114,
  823350366877586292804,
  823350366877552754754,
  821045086680887066694,
  821045086406076284994,
  823350366740147339334,
  823350366465336557634,
  821045086543515222084,
  821045086680853536834,
  823350366602775494724,
  823350366740113809474,
  821045086543481667654,
  821045086406042738754,
  823350366602741940294,
  823350366465303011394,
  675812442672679108674,
  675812442947489890374,
  675812442672679100484,
  675812442947456344134,
  675812442672645546054,
  675812442672645546054,
  673507154229609635904,
  673507145437811056704,
  823350358081527357504,
  823350349289728778304,
  673507154092204236864,
  673507145300405657664,
  823350357944121958464,
  823350349152323379264,
  673507153954765291584,
  673507145300338565184,
  823350357806683013184,
  823350349152256286784,
  821045078022267076674,
  821045069230468497474,
  823350358081527349314,
  823350349289728770114,
  821045077884861677634,
  821045069093063098434,
  823350357944121950274,
  823350349152323371074,
  821045078022233522244,
  821045069230401404994,
  823350358081493794884,
  823350349289661677634,
  821045077884794568774,
  821045068818185207874,
  823350357944054841414,
  823350348877445480514,
  821045077747422724164,
  821045069092962459714,
  823350357806682996804,
  823350349152222732354,
  821045077747389169734,
  821045068818151661634,
  823350357806649442374,
  823350348877411934274,
  675812433876586610754,
  675812425359598813254,
  675812433876586602564,
  675812425359565267014,
  675812433876553048134,
  675812425084754468934,
  673507145437811056704,
  673507154229609635904,
  675812425497071329344,
  675812434288869908544,
  673507145300405657664,
  673507154092204236864,
  675812425359665930304,
  675812434151464509504,
  673507145162966712384,
  673507154092137144384,
  675812425222226985024,
  675812434151397417024,
  673507145437811048514,
  673507154229609627714,
  823350349289728770114,
  823350358081527349314,
  673507145300405649474,
  673507154092204228674,
  823350349152323371074,
  823350357944121950274,
  673507145437777494084,
  673507154229542535234,
  823350349289695215684,
  823350358081460256834,
  673507145300338540614,
  673507153817326338114,
  823350349152256262214,
  823350357669244059714,
  673507145162966696004,
  673507154092103589954,
  823350349014884417604,
  823350357944021311554,
  673507145162933141574,
  673507153817292791874,
  823350349014850863174,
  823350357669210513474,
  675812425084788031554,
  675812434151397392454,
  675812425084788023364,
  675812434151363846214,
  675812425084754468934,
  675812433876553048134,
  673507145435664097344,
  673507145435664097344,
  675812425494924369984,
  675812425494924369984,
  673507145298258698304,
  673507145298258698304,
  675812425357518970944,
  675812425357518970944,
  673507145160819753024,
  673507145298191605824,
  675812425220080025664,
  675812425357451878464,
  673507145435664089154,
  673507145435664089154,
  823350349287581810754,
  823350349287581810754,
  673507145298258690114,
  673507145298258690114,
  823350349150176411714,
  823350349150176411714,
  673507145435630534724,
  673507145435596996674,
  823350349287548256324,
  823350349287514718274,
  673507145298191581254,
  673507145023380799554,
  823350349150109302854,
  823350348875298521154,
  673507145160819736644,
  673507145298158051394,
  823350349012737458244,
  823350349150075772994,
  673507145160786182214,
  673507145023347253314,
  823350349012703903814,
  823350348875264974914,
  675812425082641072194,
  675812425357451853894,
  675812425082641064004,
  675812425357418307654,
  675812425082607509574,
  675812425082607509574,
  673507163023554642114,
  673507163025701077314,
  821045086816212091074,
  821045086818358526274,
  673507162886149243074,
  673507162888295678274,
  821045086678806692034,
  821045086680953127234,
  673507163023521087684,
  673507163025633984834,
  821045086816178536644,
  821045086818291433794,
  673507162886082134214,
  673507162613417787714,
  821045086678739583174,
  821045086406075236674,
  673507162748710289604,
  673507162888195039554,
  821045086541367738564,
  821045086680852488514,
  673507162748676735174,
  673507162613384241474,
  821045086541334184134,
  821045086406041690434,
  673507154227462144194,
  673507145437810000194,
  821045078020119593154,
  821045069230467449154,
  673507154090056745154,
  673507145300404601154,
  821045077882714194114,
  821045069093062050114,
  673507154227428589764,
  673507145437742907714,
  821045078020086038724,
  821045069230400356674,
  673507154089989636294,
  673507145025526710594,
  821045077882647085254,
  821045068818184159554,
  673507153952617791684,
  673507145300303962434,
  821045077745275240644,
  821045069092961411394,
  673507153952584237254,
  673507145025493164354,
  821045077745241686214,
  821045068818150613314,
  673507145431369122114,
  673507145431369122114,
  821045069224026571074,
  821045069224026571074,
  673507145293963723074,
  673507145293963723074,
  821045069086621172034,
  821045069086621172034,
  673507145431335567684,
  673507145431302029634,
  821045069223993016644,
  821045069223959478594,
  673507145293896614214,
  673507145019085832514,
  821045069086554063174,
  821045068811743281474,
  673507145156524769604,
  673507145293863084354,
  821045068949182218564,
  821045069086520533314,
  673507145156491215174,
  673507145019052286274,
  821045068949148664134,
  821045068811709735234,
  821045060434375475394,
  821045078022265504194,
  821045060296970076354,
  821045077884860105154,
  821045060434341920964,
  821045078022198411714,
  821045060296902967494,
  821045077609982214594,
  821045060159531122884,
  821045077884759466434,
  821045060159497568454,
  821045077609948668354,
  673507136229434736834,
  673507154092135547334,
  673507136229434736834,
  673507154092135547334,
  673507136229434728644,
  673507154092102001094,
  673507136229434728644,
  673507154092102001094,
  673507136229401174214,
  673507153817291203014,
  673507136229401174214,
  673507153817291203014,
  821045060432228516034,
  821045069228319965634,
  821045060294823116994,
  821045069090914566594,
  821045060432194961604,
  821045069228252873154,
  821045060294756008134,
  821045068816036676034,
  821045060157384163524,
  821045069090813927874,
  821045060157350609094,
  821045068816003129794,
  673507136227287777474,
  673507145298190008774,
  673507136227287777474,
  673507145298190008774,
  673507136227287769284,
  673507145298156462534,
  673507136227287769284,
  673507145298156462534,
  673507136227254214854,
  673507145023345664454,
  673507136227254214854,
  673507145023345664454,
  821045060430081032514,
  821045069224026046914,
  821045060292675633474,
  821045069086620647874,
  821045060430047478084,
  821045069223958954434,
  821045060292608524614,
  821045068811742757314,
  821045060155236680004,
  821045069086520009154,
  821045060155203125574,
  821045068811709211074,
  673507136225140293954,
  673507145293896090054,
  673507136225140293954,
  673507145293896090054,
  673507136225140285764,
  673507145293862543814,
  673507136225140285764,
  673507145293862543814,
  673507136225106731334,
  673507145019051745734,
  673507136225106731334,
  673507145019051745734,
  164412590478073920,
  164412590478073920,
  164412453072674880,
  164412453072674880,
  164412315633729600,
  164412453005582400,
  164412590478065730,
  164412590478065730,
  164412453072666690,
  164412453072666690,
  164412590444511300,
  164412590410973250,
  164412453005557830,
  164412178194776130,
  164412315633713220,
  164412452972027970,
  164412315600158790,
  164412178161229890,
  164412178194776130,
  164412453005557830,
  164412178194767940,
  164412452972011590,
  164412178161213510,
  164412178161213510,
  164403796532535360,
  164403796532535360,
  164403659127136320,
  164403659127136320,
  164403521688191040,
  164403659060043840,
  164403796532527170,
  164403796532527170,
  164403659127128130,
  164403659127128130,
  164403796498972740,
  164403796465434690,
  164403659060019270,
  164403384249237570,
  164403521688174660,
  164403659026489410,
  164403521654620230,
  164403384215691330,
  164403384249237570,
  164403659060019270,
  164403384249229380,
  164403659026473030,
  164403384215674950,
  164403384215674950,
  164412588331114560,
  164412588331114560,
  164412450925715520,
  164412450925715520]
def ccdq_t4_abbbabbb_cert_2 : List Nat := [164412313486770240,
  164412450858623040,
  164412588331106370,
  164412588331106370,
  164412450925707330,
  164412450925707330,
  164412588297551940,
  164412588264013890,
  164412450858598470,
  164412176047816770,
  164412313486753860,
  164412450825068610,
  164412313453199430,
  164412176014270530,
  164412176047816770,
  164412450858598470,
  164412176047808580,
  164412450825052230,
  164412176014254150,
  164412176014254150,
  164403792238616640,
  164395000440037440,
  164403654833217600,
  164394863034638400,
  164403517394272320,
  164394862967545920,
  164403792238608450,
  164395000440029250,
  164403654833209410,
  164394863034630210,
  164403792205054020,
  164395000372936770,
  164403654766100550,
  164394588156739650,
  164403517394255940,
  164394862933991490,
  164403517360701510,
  164394588123193410,
  164403379955318850,
  164394862967521350,
  164403379955310660,
  164394862933975110,
  164403379921756230,
  164394588123177030,
  164395000440037440,
  164403792238616640,
  164394863034638400,
  164403654833217600,
  164394725595693120,
  164403654766125120,
  164395000440029250,
  164403792238608450,
  164394863034630210,
  164403654833209410,
  164395000406474820,
  164403792171515970,
  164394862967521350,
  164403379955318850,
  164394725595676740,
  164403654732570690,
  164394725562122310,
  164403379921772610,
  164394588156739650,
  164403654766100550,
  164394588156731460,
  164403654732554310,
  164394588123177030,
  164403379921756230,
  164394998293078080,
  164394998293078080,
  164394860887679040,
  164394860887679040,
  164394723448733760,
  164394860820586560,
  164394998293069890,
  164394998293069890,
  164394860887670850,
  164394860887670850,
  164394998259515460,
  164394998225977410,
  164394860820561990,
  164394586009780290,
  164394723448717380,
  164394860787032130,
  164394723415162950,
  164394585976234050,
  164394586009780290,
  164394860820561990,
  164394586009772100,
  164394860787015750,
  164394585976217670,
  164394585976217670,
  164412586183622850,
  164412588330058050,
  164412448778223810,
  164412450924659010,
  164412586150068420,
  164412588262965570,
  164412448711114950,
  164412176046768450,
  164412311339270340,
  164412450824020290,
  164412311305715910,
  164412176013222210,
  164403790091124930,
  164395000438980930,
  164403652685725890,
  164394863033581890,
  164403790057570500,
  164395000371888450,
  164403652618617030,
  164394588155691330,
  164403515246772420,
  164394862932943170,
  164403515213217990,
  164394588122145090,
  164394993998102850,
  164394993998102850,
  164394856592703810,
  164394856592703810,
  164394993964548420,
  164394993931010370,
  164394856525594950,
  164394581714813250,
  164394719153750340,
  164394856492065090,
  164394719120195910,
  164394581681267010,
  164386204347007170,
  164403792237035970,
  164386066941608130,
  164403654831636930,
  164386204313452740,
  164403792169943490,
  164386066874499270,
  164403379953746370,
  164385929502654660,
  164403654730998210,
  164385929469100230,
  164403379920200130,
  164385792063717570,
  164403654764528070,
  164385792063709380,
  164403654730981830,
  164385792030154950,
  164403379920183750,
  164386202200047810,
  164394998291497410,
  164386064794648770,
  164394860886098370,
  164386202166493380,
  164394998224404930,
  164386064727539910,
  164394586008207810,
  164385927355695300,
  164394860785459650,
  164385927322140870,
  164394585974661570,
  164385789916758210,
  164394860818989510,
  164385789916750020,
  164394860785443270,
  164385789883195590,
  164394585974645190,
  164386200052564290,
  164394993997578690,
  164386062647165250,
  164394856592179650,
  164386200019009860,
  164394993930486210,
  164386062580056390,
  164394581714289090,
  164385925208211780,
  164394856491540930,
  164385925174657350,
  164394581680742850,
  164385787769274690,
  164394856525070790,
  164385787769266500,
  164394856491524550,
  164385787735712070,
  164394581680726470,
  821045086820506542144,
  821045086820506542144,
  673507163027849093184,
  673507163027849093184,
  823350366879766814784,
  823350366879766814784,
  823350366879766806594,
  823350366879766806594,
  823350366879766806594,
  823350366879766806594,
  675812443087109357634,
  675812443087109357634,
  823350366879733252164,
  823350366879699714114,
  823350366879733252164,
  823350366879699714114,
  675812443087075803204,
  675812443087042265154,
  823350366742294298694,
  823350366467483516994,
  823350366742294298694,
  823350366467483516994,
  675812442949636849734,
  675812442674826068034,
  821045086818359582784,
  821045086818359582784,
  673507163025702133824,
  673507163025702133824,
  823350366877619855424,
  823350366877619855424,
  823350366877619847234,
  823350366877619847234,
  823350366877619847234,
  823350366877619847234,
  675812443084962398274,
  675812443084962398274,
  823350366877586292804,
  823350366877552754754,
  823350366877586292804,
  823350366877552754754,
  675812443084928843844,
  675812443084895305794,
  823350366740147339334,
  823350366465336557634,
  823350366740147339334,
  823350366465336557634,
  675812442947489890374,
  675812442672679108674,
  821045078022267084864,
  821045069230468505664,
  673507154229609635904,
  673507145437811056704,
  823350358081527357504,
  823350349289728778304,
  823350358081527349314,
  823350349289728770114,
  823350358081527349314,
  823350349289728770114,
  675812434288869900354,
  675812425497071321154,
  823350358081493794884,
  823350349289661677634,
  823350358081493794884,
  823350349289661677634,
  675812434288836345924,
  675812425497004228674,
  823350357944054841414,
  823350348877445480514,
  823350357944054841414,
  823350348877445480514,
  675812434151397392454,
  675812425084788031554,
  821045086816212091074,
  821045086818358526274,
  673507163023554642114,
  673507163025701077314,
  823350366875472363714,
  823350366877618798914,
  821045086816178536644,
  821045086818291433794,
  673507163023521087684,
  673507163025633984834,
  823350366875438809284,
  823350366877551706434,
  821045086678739583174,
  821045086406075236674,
  673507162886082134214,
  673507162613417787714,
  823350366737999855814,
  823350366465335509314,
  821045078020119593154,
  821045069230467449154,
  673507154227462144194,
  673507145437810000194,
  823350358079379865794,
  823350349289727721794,
  821045078020086038724,
  821045069230400356674,
  673507154227428589764,
  673507145437742907714,
  823350358079346311364,
  823350349289660629314,
  821045077882647085254,
  821045068818184159554,
  673507154089989636294,
  673507145025526710594,
  823350357941907357894,
  823350348877444432194,
  821045069224026571074,
  821045069224026571074,
  673507145431369122114,
  673507145431369122114,
  823350349283286843714,
  823350349283286843714,
  821045069223993016644,
  821045069223959478594,
  673507145431335567684,
  673507145431302029634,
  823350349283253289284,
  823350349283219751234,
  821045069086554063174,
  821045068811743281474,
  673507145293896614214,
  673507145019085832514,
  823350349145814335814,
  823350348871003554114,
  823350366879766814784,
  823350366879766814784,
  821045086820506542144,
  821045086820506542144,
  823350366879733268544,
  823350366879733268544,
  821045086820472995904,
  821045086820472995904,
  823350366742294323264,
  823350366604922470464,
  821045086683034050624,
  821045086545662197824,
  675812443087042265154,
  675812443087075803204,
  673507163027781992514,
  673507163027815530564,
  675812442949603319874,
  675812442812265005124,
  673507162890343047234,
  673507162753004732484,
  675812442812164366404,
  675812442812164366404,
  673507162752904093764,
  673507162752904093764,
  823350358085821276224,
  823350358085821276224,
  821045078026561003584,
  821045078026561003584,
  823350358085787729984,
  823350358085787729984,
  821045078026527457344,
  821045078026527457344,
  823350357948348784704,
  823350357810976931904,
  821045077889088512064,
  821045077751716659264,
  675812434293096726594,
  675812434293130264644,
  673507154233836453954,
  673507154233869992004,
  675812434155657781314,
  675812434018319466564,
  673507154096397508674,
  673507153959059193924,
  675812434018218827844,
  675812434018218827844,
  673507153958958555204,
  673507153958958555204,
  823350366877619855424,
  823350366877619855424,
  821045086818359582784,
  821045086818359582784,
  823350366877586309184,
  823350366877586309184,
  821045086818326036544,
  821045086818326036544,
  823350366740147363904,
  823350366602775511104,
  821045086680887091264,
  821045086543515238464,
  675812443084895305794,
  675812443084928843844,
  673507163025635033154,
  673507163025668571204,
  675812442947456360514,
  675812442810118045764,
  673507162888196087874,
  673507162750857773124,
  675812442810017407044,
  675812442810017407044,
  673507162750757134404,
  673507162750757134404,
  823350358081527357504,
  823350349289728778304,
  821045078022267084864,
  821045069230468505664,
  823350358081493811264,
  823350349289695232064,
  821045078022233538624,
  821045069230434959424,
  823350357944054865984,
  823350349014884433984,
  821045077884794593344,
  821045068955624161344,
  675812434288802807874,
  675812425497037766724,
  673507154229542535234,
  673507145437777494084,
  675812434151363862594,
  675812425222226968644,
  673507154092103589954,
  673507145162966696004]
def ccdq_t4_abbbabbb_cert_3 : List Nat := [675812434013924909124,
  675812425222126329924,
  673507153954664636484,
  673507145162866057284,
  823350349289728778304,
  823350358081527357504,
  821045069230468505664,
  821045078022267084864,
  823350349289695232064,
  823350358081493811264,
  821045069230434959424,
  821045078022233538624,
  823350349152256286784,
  823350357806683013184,
  821045069092996014144,
  821045077747422740544,
  675812425497004228674,
  675812434288836345924,
  673507145437743956034,
  673507154229576073284,
  675812425359565283394,
  675812434014025547844,
  673507145300305010754,
  673507153954765275204,
  675812425222126329924,
  675812434013924909124,
  673507145162866057284,
  673507153954664636484,
  823350349287581818944,
  823350349287581818944,
  821045069228321546304,
  821045069228321546304,
  823350349287548272704,
  823350349287548272704,
  821045069228288000064,
  821045069228288000064,
  823350349150109327424,
  823350349012737474624,
  821045069090849054784,
  821045068953477201984,
  675812425494857269314,
  675812425494890807364,
  673507145435596996674,
  673507145435630534724,
  675812425357418324034,
  675812425220080009284,
  673507145298158051394,
  673507145160819736644,
  675812425219979370564,
  675812425219979370564,
  673507145160719097924,
  673507145160719097924,
  823350366875472371904,
  823350366877618807104,
  823350366875438825664,
  823350366877585260864,
  823350366737999880384,
  823350366602774462784,
  823350358079379873984,
  823350349289727729984,
  823350358079346327744,
  823350349289694183744,
  823350357941907382464,
  823350349014883385664,
  823350349283286851904,
  823350349283286851904,
  823350349283253305664,
  823350349283253305664,
  823350349145814360384,
  823350349008442507584,
  675812416700911206594,
  675812434288834773444,
  675812416563472261314,
  675812434014023975364,
  675812416426033307844,
  675812434013923336644,
  675812416698764247234,
  675812425494889234884,
  675812416561325301954,
  675812425220078436804,
  675812416423886348484,
  675812425219977798084,
  675812416696616763714,
  675812425490595316164,
  675812416559177818434,
  675812425215784518084,
  675812416421738864964,
  675812425215683879364,
  823350366879766814784,
  823350366879766814784,
  675812443087109365824,
  675812443087109365824,
  821045086820506542144,
  821045086820506542144,
  673507163027849093184,
  673507163027849093184,
  823350366877619855424,
  823350366877619855424,
  675812443084962406464,
  675812443084962406464,
  821045086818359582784,
  821045086818359582784,
  673507163025702133824,
  673507163025702133824,
  823350358081527357504,
  823350349289728778304,
  675812434288869908544,
  675812425497071329344,
  821045078022267084864,
  821045069230468505664,
  673507154229609635904,
  673507145437811056704,
  823350366875472371904,
  823350366877618807104,
  823350358079379873984,
  823350349289727729984,
  823350349283286851904,
  823350349283286851904,
  811818900033884659776,
  811818900033884659776,
  811818900031737700416,
  811818900031737700416,
  811818891235645202496,
  811818882443846623296,
  811818900029590216896,
  811818900031736652096,
  664280976236932767936,
  664280976239079203136,
  811818891233497718976,
  811818882443845574976,
  664280967440840270016,
  664280958651188126016,
  811818882437404696896,
  811818882437404696896,
  664280958644747247936,
  664280958644747247936,
  811818900033884659776,
  811818900033884659776,
  811818900033851113536,
  811818900033851113536,
  811818899896412168256,
  811818899759040315456,
  811818900031737700416,
  811818900031737700416,
  811818900031704154176,
  811818900031704154176,
  811818899894265208896,
  811818899756893356096,
  811818891235645202496,
  811818882443846623296,
  811818891235611656256,
  811818882443813077056,
  811818891098172710976,
  811818882169002278976,
  664280976241159585986,
  664280976241193124036,
  664280976103720640706,
  664280975966382325956,
  664280975966281687236,
  664280975966281687236,
  664280976239012102466,
  664280976236899205316,
  664280976101573157186,
  664280975962088407236,
  664280975964134203716,
  664280975961987768516,
  664280967442919080386,
  664280949855062589636,
  664280967305480135106,
  664280949580251791556,
  664280967168041181636,
  664280949580151152836,
  811818900029590216896,
  811818900031736652096,
  811818900029556670656,
  811818900031703105856,
  811818899892117725376,
  811818899756892307776,
  664280976236865667266,
  664280976239045640516,
  664280976099426721986,
  664280975964234842436,
  664280975961987768516,
  664280975964134203716,
  811818891233497718976,
  811818882443845574976,
  811818891233464172736,
  811818882443812028736,
  811818891096025227456,
  811818882169001230656,
  664280967440773169346,
  664280958651154563396,
  664280967303334224066,
  664280958376343765316,
  664280967165895270596,
  664280958376243126596,
  811818900029589692736,
  811818900029589692736,
  811818900029556146496,
  811818900029556146496,
  811818899892117201216,
  811818899754745348416,
  664280976236865143106,
  664280976236898681156,
  664280976099426197826,
  664280975962087883076,
  664280975961987244356,
  664280975961987244356,
  811818891233496670656,
  811818873647753077056,
  811818891233463124416,
  811818873647719530816,
  811818891096024179136,
  811818873372908732736,
  664280967440772121026,
  664280949855062065476,
  664280967303333175746,
  664280949580251267396,
  664280967165894222276,
  664280949580150628676,
  811818882437404696896,
  811818882437404696896,
  811818882437371150656,
  811818882437371150656,
  811818882299932205376,
  811818882162560352576,
  664280958644680147266,
  664280958644713685316,
  664280958507241201986,
  664280958369902887236,
  664280958369802248516,
  664280958369802248516,
  811818882437404172736,
  811818873643459158336,
  811818882437370626496,
  811818873643425612096,
  811818882299931681216,
  811818873368614814016,
  664280958644679623106,
  664280949850768146756,
  664280958507240677826,
  664280949575957348676,
  664280958369801724356,
  664280949575856709956,
  675812443087109365824,
  675812443087109365824,
  673507163027849093184,
  673507163027849093184,
  823350366879766814784,
  823350366879766814784,
  675812443087075819584,
  675812443087075819584,
  673507163027815546944,
  673507163027815546944,
  823350366879733268544,
  823350366879733268544,
  675812442949636874304,
  675812442812265021504,
  673507162890376601664,
  673507162753004748864,
  823350366742294323264,
  823350366604922470464,
  823350366879766290624,
  823350366879766290624,
  823350366879766290624,
  823350366879766290624,
  821045086820506017984,
  821045086820506017984,
  823350366879732744384,
  823350366879732744384,
  823350366879732744384,
  823350366879732744384,
  821045086820472471744,
  821045086820472471744,
  823350366742293799104,
  823350366604921946304,
  823350366742293799104,
  823350366604921946304,
  821045086683033526464,
  821045086545661673664,
  675812443087041740994,
  675812443087075279044,
  673507163027781468354,
  673507163027815006404,
  823350366879699189954,
  823350366879732728004,
  675812442949602795714,
  675812442812264480964,
  673507162890342523074,
  673507162753004208324,
  823350366742260244674,
  823350366604921929924,
  675812442812163842244,
  675812442812163842244,
  673507162752903569604,
  673507162752903569604,
  823350366604821291204,
  823350366604821291204,
  823350366877618807104,
  823350366875472371904,
  823350366877618807104,
  823350366875472371904,
  821045086818358534464,
  821045086816212099264,
  823350366877585260864,
  823350366875438825664,
  823350366877585260864,
  823350366875438825664,
  821045086818324988224,
  821045086816178553024,
  823350366740146315584,
  823350366600628027584,
  823350366740146315584,
  823350366600628027584,
  821045086680886042944,
  821045086541367754944,
  675812443084894257474,
  675812443082781360324,
  673507163025633984834,
  673507163023521087684,
  823350366877551706434,
  823350366875438809284,
  675812442947455312194,
  675812442807970562244,
  673507162888195039554,
  673507162748710289604,
  823350366740112761154,
  823350366600628011204,
  675812442810016358724,
  675812442807869923524,
  673507162750756086084,
  673507162748609650884,
  823350366602673807684,
  823350366600527372484,
  823350358081525785024,
  823350340493635756224,
  823350358081525785024,
  823350340493635756224,
  821045078022265512384,
  821045060434375483584,
  823350358081492238784,
  823350340493602209984,
  823350358081492238784,
  823350340493602209984,
  821045078022231966144,
  821045060434341937344,
  823350357944053293504,
  823350340218791411904,
  823350357944053293504,
  823350340218791411904,
  821045077884793020864,
  821045060159531139264,
  675812434288801235394,
  675812416700944744644,
  673507154229540962754,
  673507136641684472004,
  823350358081458684354,
  823350340493602193604,
  675812434151362290114,
  675812416426133946564,
  673507154092102017474,
  673507136366873673924,
  823350357944019739074,
  823350340218791395524,
  675812434013923336644,
  675812416426033307844,
  673507153954663064004,
  673507136366773035204,
  823350357806580785604,
  823350340218690756804,
  823350366879766814784,
  823350366879766814784,
  823350366879766814784,
  823350366879766814784,
  673507163027849093184,
  673507163027849093184,
  823350366879766814784,
  823350366879766814784,
  675812443087109357634,
  675812443087109357634,
  675812443087075803204,
  675812443087042265154,
  675812442949636849734,
  675812442674826068034,
  821045086820506017984,
  821045086820506017984,
  823350366879766282434,
  823350366879766282434,
  823350366879766282434,
  823350366879766282434,
  673507163027848560834,
  673507163027848560834,
  823350366879766282434,
  823350366879766282434,
  823350366879732728004,
  823350366879699189954,
  823350366879732728004,
  823350366879699189954,
  673507163027815006404,
  673507163027781468354]
def ccdq_t4_abbbabbb_cert_4 : List Nat := [823350366879732728004,
  823350366879699189954,
  823350366742293774534,
  823350366467482992834,
  823350366742293774534,
  823350366467482992834,
  673507162890376052934,
  673507162615565271234,
  823350366742293774534,
  823350366467482992834,
  821045086818358534464,
  821045086816212099264,
  823350366877618798914,
  823350366875472363714,
  823350366877618798914,
  823350366875472363714,
  673507163025701077314,
  673507163023554642114,
  823350366877618798914,
  823350366875472363714,
  823350366877585244484,
  823350366875405271234,
  823350366877585244484,
  823350366875405271234,
  673507163025667522884,
  673507163023487549634,
  823350366877585244484,
  823350366875405271234,
  823350366740146291014,
  823350366463189074114,
  823350366740146291014,
  823350366463189074114,
  673507162888228569414,
  673507162611271352514,
  823350366740146291014,
  823350366463189074114,
  821045078022265512384,
  821045060434375483584,
  823350358081525776834,
  823350340493635748034,
  823350358081525776834,
  823350340493635748034,
  673507154229608055234,
  673507136641718026434,
  823350358081525776834,
  823350340493635748034,
  823350358081492222404,
  823350340493568655554,
  823350358081492222404,
  823350340493568655554,
  673507154229574500804,
  673507136641650933954,
  823350358081492222404,
  823350340493568655554,
  823350357944053268934,
  823350340081352458434,
  823350357944053268934,
  823350340081352458434,
  673507154092135547334,
  673507136229434736834,
  823350357944053268934,
  823350340081352458434,
  823350366879766814784,
  823350366879766814784,
  821045086820506542144,
  821045086820506542144,
  675812443087109365824,
  675812443087109365824,
  673507163027849093184,
  673507163027849093184,
  823350366879733268544,
  823350366879733268544,
  821045086820472995904,
  821045086820472995904,
  675812443087075819584,
  675812443087075819584,
  673507163027815546944,
  673507163027815546944,
  823350366742294323264,
  823350366604922470464,
  821045086683034050624,
  821045086545662197824,
  675812442949636874304,
  675812442812265021504,
  673507162890376601664,
  673507162753004748864,
  823350366879699714114,
  823350366879733252164,
  823350366742260768834,
  823350366604922454084,
  823350366604821815364,
  823350366604821815364,
  11531498049961205824,
  11531498049961205824,
  11531498049927659584,
  11531498049927659584,
  11531497912488714304,
  11531497775116861504,
  11531498049894105154,
  11531498049927643204,
  9226217990633832514,
  9226217990667370564,
  11531497912455159874,
  11531497775116845124,
  9226217853194887234,
  9226217715856572484,
  11531497775016206404,
  11531497775016206404,
  9226217715755933764,
  9226217715755933764,
  164412590478073920,
  164412590478073920,
  164412590478073920,
  164412590478073920,
  164412453072674880,
  164412453072674880,
  164412453072674880,
  164412453072674880,
  164412315633729600,
  164412453005582400,
  164412315633729600,
  164412453005582400,
  164412178194776130,
  164412453005557830,
  164403796532535360,
  164403796532535360,
  164403796532535360,
  164403796532535360,
  164403659127136320,
  164403659127136320,
  164403659127136320,
  164403659127136320,
  164403521688191040,
  164403659060043840,
  164403521688191040,
  164403659060043840,
  164403384249237570,
  164403659060019270,
  164395000440037440,
  164403792238616640,
  164395000440037440,
  164403792238616640,
  164394863034638400,
  164403654833217600,
  164394863034638400,
  164403654833217600,
  164394725595693120,
  164403654766125120,
  164394725595693120,
  164403654766125120,
  164394588156739650,
  164403654766100550,
  164386204347015360,
  164403792237044160,
  164386066941616320,
  164403654831645120,
  164385929502671040,
  164403654764552640,
  164385792063717570,
  164403654764528070,
  164385792063717570,
  164403654764528070,
  2283003892736064,
  2283003892736064,
  2282866487337024,
  2282866487337024,
  2283003892736064,
  2283003892736064,
  2283003892736064,
  2283003892736064,
  162160790664388672,
  162160790664388672,
  162160790664388672,
  162160790664388672,
  162160790664388672,
  162160790664388672,
  162151996718850112,
  162151996718850112,
  9226217990700933184,
  9226217990700933184,
  9226217990667386944,
  9226217990667386944,
  9226217990700933184,
  9226217990700933184,
  9226217853295534144,
  9226217853295534144,
  11531498049961205824,
  11531498049961205824,
  11531497912555806784,
  11531497912555806784,
  9226217990700933184,
  9226217990700933184,
  9226217990700933184,
  9226217990700933184,
  11531498049961205824,
  11531498049961205824,
  164412590478073920,
  164412590478073920,
  164412453072674880,
  164412453072674880,
  164412590478073920,
  164412590478073920,
  164412453072674880,
  164412453072674880,
  164412590478073920,
  164412590478073920,
  164412453072674880,
  164412453072674880,
  164412590478073920,
  164412590478073920,
  164412590478073920,
  164412590478073920,
  164412590478073920,
  164412590478073920,
  164412590478073920,
  164412590478073920,
  164412590478073920,
  164412590478073920,
  164412590478073920,
  164412590478073920,
  164412590478073920,
  164412590478073920,
  164412453072674880,
  164412453072674880,
  164403796532535360,
  164403796532535360,
  164403659127136320,
  164403659127136320,
  164412590478073920,
  164412590478073920,
  164412453072674880,
  164412453072674880,
  164403796532535360,
  164403796532535360,
  164403659127136320,
  164403659127136320,
  164412590478073920,
  164412590478073920,
  164403796532535360,
  164403796532535360,
  164412590478073920,
  164412590478073920,
  164403796532535360,
  164403796532535360,
  164412590478073920,
  164412590478073920,
  164403796532535360,
  164403796532535360,
  811818900033884659776,
  811818900033884659776,
  811818900031737700416,
  811818900031737700416,
  664280976241227210816,
  664280976241227210816,
  664280976239080251456,
  664280976239080251456,
  811818900033884659776,
  811818900033884659776,
  664280976241227210816,
  664280976241227210816,
  811818900033884659776,
  811818900033884659776,
  811818900033884659776,
  811818900033884659776,
  811818882441699663936,
  811818882441699663936,
  823350366879766814784,
  823350366879766814784,
  823350366742361415744,
  823350366742361415744,
  675812443087109365824,
  675812443087109365824,
  675812442949703966784,
  675812442949703966784,
  823350366879766814784,
  823350366879766814784,
  823350366742361415744,
  823350366742361415744,
  823350366879766814784,
  823350366879766814784,
  675812443087109365824,
  675812443087109365824,
  823350366879766814784,
  823350366879766814784,
  823350366879766814784,
  823350366879766814784,
  821045086820506542144,
  821045086820506542144,
  673507163027849093184,
  673507163027849093184,
  821045086820506542144,
  821045086820506542144,
  821045086820472995904,
  821045086820472995904,
  821045086820506542144,
  821045086820506542144,
  821045086683101143104,
  821045086683101143104,
  823350366879766814784,
  823350366879766814784,
  823350366742361415744,
  823350366742361415744,
  673507163027849093184,
  673507163027849093184,
  673507162890443694144,
  673507162890443694144,
  675812443087109365824,
  675812443087109365824,
  675812442949703966784,
  675812442949703966784,
  821045086820506542144,
  821045086820506542144,
  821045086820506542144,
  821045086820506542144,
  823350366879766814784,
  823350366879766814784,
  673507163027849093184,
  673507163027849093184,
  675812443087109365824,
  675812443087109365824,
  821045086820506542144,
  821045086820506542144,
  673507163027849093184,
  673507163027849093184,
  675812443087109365824,
  675812443087109365824,
  821045086820506542144,
  821045086820506542144,
  823350366879766814784,
  823350366879766814784,
  821045086820506542144,
  821045086820506542144,
  675812443087109365824,
  675812443087109365824,
  675812442949703966784,
  675812442949703966784,
  823350366879766814784,
  823350366879766814784,
  823350366742361415744,
  823350366742361415744,
  823350366879766814784,
  823350366879766814784,
  823350366742361415744,
  823350366742361415744,
  673507163027849093184,
  673507163027849093184,
  673507162890443694144,
  673507162890443694144,
  823350366879766814784,
  823350366879766814784,
  823350366742361415744,
  823350366742361415744,
  675812443087109365824,
  675812443087109365824,
  823350366879766814784,
  823350366879766814784,
  823350366879766814784,
  823350366879766814784,
  673507163027849093184,
  673507163027849093184,
  823350366879766814784,
  823350366879766814784,
  823350366879766814784,
  823350366879766814784,
  823350366879766814784,
  823350366879766814784,
  673507163027849093184,
  673507163027849093184,
  823350366879766814784,
  823350366879766814784,
  821045086820506542144,
  821045086820506542144,
  673507163027849093184,
  673507163027849093184,
  673507163027815546944,
  673507163027815546944,
  675812443087109365824,
  675812443087109365824,
  675812443087075819584,
  675812443087075819584,
  821045086820506542144,
  821045086820506542144,
  821045086820472995904,
  821045086820472995904,
  673507163027849093184,
  673507163027849093184,
  673507162890443694144,
  673507162890443694144,
  675812443087109365824,
  675812443087109365824,
  675812442949703966784,
  675812442949703966784,
  821045086820506542144,
  821045086820506542144,
  821045086683101143104,
  821045086683101143104,
  821045086820506542144,
  821045086820506542144,
  821045086683101143104,
  821045086683101143104]
def ccdq_t4_abbbabbb_cert_5 : List Nat := [821045086820506542144,
  821045086820506542144,
  821045086683101143104,
  821045086683101143104,
  823350366879766814784,
  823350366879766814784,
  823350366742361415744,
  823350366742361415744,
  673507163027849093184,
  673507163027849093184,
  675812443087109365824,
  675812443087109365824,
  821045086820506542144,
  821045086820506542144,
  673507163027849093184,
  673507163027849093184,
  675812443087109365824,
  675812443087109365824,
  821045086820506542144,
  821045086820506542144,
  821045086820506542144,
  821045086820506542144,
  821045086820506542144,
  821045086820506542144,
  823350366879766814784,
  823350366879766814784,
  821045086820506542144,
  821045086820506542144,
  821045078026561003584,
  821045078026561003584,
  823350366879766814784,
  823350366879766814784,
  823350358085821276224,
  823350358085821276224,
  821045086820506542144,
  821045086820506542144,
  821045078026561003584,
  821045078026561003584,
  823350366879766814784,
  823350366879766814784,
  823350366742361415744,
  823350366742361415744,
  823350358085821276224,
  823350358085821276224,
  823350357948415877184,
  823350357948415877184,
  823350366879766814784,
  823350366879766814784,
  823350366742361415744,
  823350366742361415744,
  823350358085821276224,
  823350358085821276224,
  823350357948415877184,
  823350357948415877184,
  673507163027849093184,
  673507163027849093184,
  673507162890443694144,
  673507162890443694144,
  673507154233903554624,
  673507154233903554624,
  673507154096498155584,
  673507154096498155584,
  823350366879766814784,
  823350366879766814784,
  823350366742361415744,
  823350366742361415744,
  823350358085821276224,
  823350358085821276224,
  823350357948415877184,
  823350357948415877184,
  823350366879766814784,
  823350366879766814784,
  823350358085821276224,
  823350358085821276224,
  823350366879766814784,
  823350366879766814784,
  823350358085821276224,
  823350358085821276224,
  673507163027849093184,
  673507163027849093184,
  673507154233903554624,
  673507154233903554624,
  823350366879766814784,
  823350366879766814784,
  823350358085821276224,
  823350358085821276224,
  821045086820506542144,
  821045086820506542144,
  821045078026561003584,
  821045078026561003584,
  673507163027849093184,
  673507163027849093184,
  673507163027815546944,
  673507163027815546944,
  673507154233903554624,
  673507154233903554624,
  673507154233870008384,
  673507154233870008384,
  675812443087109365824,
  675812443087109365824,
  675812443087075819584,
  675812443087075819584,
  675812434293163827264,
  675812434293163827264,
  675812434293130281024,
  675812434293130281024,
  821045086820506542144,
  821045086820506542144,
  821045086820472995904,
  821045086820472995904,
  821045078026561003584,
  821045078026561003584,
  821045078026527457344,
  821045078026527457344,
  821045086820506542144,
  821045086820506542144,
  821045086683101143104,
  821045086683101143104,
  821045078026561003584,
  821045078026561003584,
  821045077889155604544,
  821045077889155604544,
  821045086820506542144,
  821045086820506542144,
  821045086683101143104,
  821045086683101143104,
  821045078026561003584,
  821045078026561003584,
  821045077889155604544,
  821045077889155604544,
  823350366879766814784,
  823350366879766814784,
  823350366742361415744,
  823350366742361415744,
  823350358085821276224,
  823350358085821276224,
  823350357948415877184,
  823350357948415877184,
  673507163027849093184,
  673507163027849093184,
  673507154233903554624,
  673507154233903554624,
  675812443087109365824,
  675812443087109365824,
  675812434293163827264,
  675812434293163827264,
  821045086820506542144,
  821045086820506542144,
  821045078026561003584,
  821045078026561003584,
  821045086820506542144,
  821045086820506542144,
  821045078026561003584,
  821045078026561003584,
  821045086820506542144,
  821045086820506542144,
  821045078026561003584,
  821045078026561003584,
  823350366879766814784,
  823350366879766814784,
  823350358085821276224,
  823350358085821276224,
  821045086820506542144,
  821045086820506542144,
  821045086818359582784,
  821045086818359582784,
  673507163027849093184,
  673507163027849093184,
  673507163025702133824,
  673507163025702133824,
  823350366879766814784,
  823350366879766814784,
  823350366877619855424,
  823350366877619855424,
  675812443087109365824,
  675812443087109365824,
  675812443084962406464,
  675812443084962406464,
  823350366879766814784,
  823350366879766814784,
  823350366742361415744,
  823350366742361415744,
  823350366877619855424,
  823350366877619855424,
  823350366740214456384,
  823350366740214456384,
  823350366879766814784,
  823350366879766814784,
  823350366742361415744,
  823350366742361415744,
  823350366877619855424,
  823350366877619855424,
  823350366740214456384,
  823350366740214456384,
  675812443087109365824,
  675812443087109365824,
  675812442949703966784,
  675812442949703966784,
  675812443084962406464,
  675812443084962406464,
  675812442947557007424,
  675812442947557007424,
  823350366879766814784,
  823350366879766814784,
  823350366877619855424,
  823350366877619855424,
  823350366879766814784,
  823350366879766814784,
  823350366877619855424,
  823350366877619855424,
  675812443087109365824,
  675812443087109365824,
  675812443084962406464,
  675812443084962406464,
  821045086820506542144,
  821045086820506542144,
  821045086818359582784,
  821045086818359582784,
  673507163027849093184,
  673507163027849093184,
  673507163025702133824,
  673507163025702133824,
  823350366879766814784,
  823350366879766814784,
  823350366877619855424,
  823350366877619855424,
  821045086820506542144,
  821045086820506542144,
  673507163027849093184,
  673507163027849093184,
  823350366879766814784,
  823350366879766814784,
  675812443087109365824,
  675812443087109365824,
  821045086820506542144,
  821045086820506542144,
  823350366879766814784,
  823350366879766814784,
  823350366742361415744,
  823350366742361415744,
  823350366879766814784,
  823350366879766814784,
  823350366742361415744,
  823350366742361415744,
  675812443087109365824,
  675812443087109365824,
  675812442949703966784,
  675812442949703966784,
  821045086820506542144,
  821045086820506542144,
  821045086683101143104,
  821045086683101143104,
  673507163027849093184,
  673507163027849093184,
  673507162890443694144,
  673507162890443694144,
  823350366879766814784,
  823350366879766814784,
  823350366742361415744,
  823350366742361415744,
  823350366879766814784,
  823350366879766814784,
  823350366879766814784,
  823350366879766814784,
  675812443087109365824,
  675812443087109365824,
  821045086820506542144,
  821045086820506542144,
  673507163027849093184,
  673507163027849093184,
  823350366879766814784,
  823350366879766814784,
  821045086820506542144,
  821045086820506542144,
  673507163027849093184,
  673507163027849093184,
  823350366879766814784,
  823350366879766814784,
  821045086820506542144,
  821045086820506542144,
  821045069228321546304,
  821045069228321546304,
  821045086820506542144,
  821045086820506542144,
  821045086683101143104,
  821045086683101143104,
  821045069228321546304,
  821045069228321546304,
  821045069090916147264,
  821045069090916147264,
  673507163027849093184,
  673507163027849093184,
  673507162890443694144,
  673507162890443694144,
  673507145435664097344,
  673507145435664097344,
  673507145298258698304,
  673507145298258698304,
  823350366879766814784,
  823350366879766814784,
  823350366742361415744,
  823350366742361415744,
  823350349287581818944,
  823350349287581818944,
  823350349150176419904,
  823350349150176419904,
  821045086820506542144,
  821045086820506542144,
  821045069228321546304,
  821045069228321546304,
  673507163027849093184,
  673507163027849093184,
  673507145435664097344,
  673507145435664097344,
  823350366879766814784,
  823350366879766814784,
  823350349287581818944,
  823350349287581818944,
  11531498049961205824,
  11531498049961205824,
  11531498047814246464,
  11531498047814246464,
  11531498049961205824,
  11531498049961205824,
  11531498049961205824,
  11531498049961205824,
  11531498047814246464,
  11531498047814246464,
  11531498049961205824,
  11531498049961205824,
  11531498049961205824,
  11531498049961205824,
  11531498049927659584,
  11531498049927659584,
  11531498047814246464,
  11531498047814246464,
  11531498047780700224,
  11531498047780700224,
  11531498049961205824,
  11531498049961205824,
  11531498049927659584,
  11531498049927659584,
  11531498049961205824,
  11531498049961205824,
  11531498047814246464,
  11531498047814246464,
  11531498049961205824,
  11531498049961205824,
  11531498049961205824,
  11531498049961205824,
  11531497775083315264,
  11531497775083315264,
  11531498047814246464,
  11531498047814246464,
  11531497772936355904,
  11531497772936355904,
  11531498049961205824,
  11531498049961205824,
  11531497775083315264,
  11531497775083315264,
  11531498049961205824,
  11531498049961205824,
  11531497912555806784,
  11531497912555806784,
  11531498047814246464,
  11531498047814246464,
  11531497910408847424,
  11531497910408847424,
  11531498049961205824,
  11531498049961205824,
  11531497912555806784,
  11531497912555806784,
  164412590478073920,
  164412590478073920,
  164412588331114560,
  164412588331114560,
  164412590478073920,
  164412590478073920,
  164412453072674880,
  164412453072674880,
  164412588331114560,
  164412588331114560,
  164412450925715520,
  164412450925715520,
  164412590478073920,
  164412590478073920,
  164412590478073920,
  164412590478073920,
  164412590478073920,
  164412590478073920,
  164412590478073920,
  164412590478073920,
  164412453072674880,
  164412453072674880,
  164412590478073920,
  164412590478073920,
  164412453072674880,
  164412453072674880,
  164412590478073920,
  164412590478073920]
def ccdq_t4_abbbabbb_cert_6 : List Nat := [164412588331114560,
  164412588331114560,
  164412590478073920,
  164412590478073920,
  164412590478073920,
  164412590478073920,
  164412590478073920,
  164412590478073920,
  164412590478073920,
  164412590478073920,
  164412588331114560,
  164412588331114560,
  164412590478073920,
  164412590478073920,
  164412588331114560,
  164412588331114560,
  164412590478073920,
  164412590478073920,
  164412588331114560,
  164412588331114560,
  164412590478073920,
  164412590478073920,
  164412590478073920,
  164412590478073920,
  164412590478073920,
  164412590478073920,
  164412590478073920,
  164412590478073920,
  164412590478073920,
  164412590478073920,
  164412590478073920,
  164412590478073920,
  164412590478073920,
  164412590478073920,
  164412590478073920,
  164412590478073920,
  164412590444527680,
  164412590444527680,
  164412588331114560,
  164412588331114560,
  164412588297568320,
  164412588297568320,
  164412590478073920,
  164412590478073920,
  164412590444527680,
  164412590444527680,
  164412590478073920,
  164412590478073920,
  164412590444527680,
  164412590444527680,
  164412590478073920,
  164412590478073920,
  164412590478073920,
  164412590478073920,
  164412590478073920,
  164412590478073920,
  164412590478073920,
  164412590478073920,
  164412453072674880,
  164412453072674880,
  164412590478073920,
  164412590478073920,
  164412453072674880,
  164412453072674880,
  164412590478073920,
  164412590478073920,
  164412590478073920,
  164412590478073920,
  164412590478073920,
  164412590478073920,
  164412590478073920,
  164412590478073920,
  164412590478073920,
  164412590478073920,
  164412590478073920,
  164412590478073920,
  164412590478073920,
  164412590478073920,
  164412590478073920,
  164412590478073920,
  164412590478073920,
  164412590478073920,
  164412590478073920,
  164412590478073920,
  164412590444527680,
  164412590444527680,
  164412590478073920,
  164412590478073920,
  164412590478073920,
  164412590478073920,
  164412590478073920,
  164412590478073920,
  164412590478073920,
  164412590478073920,
  164412453072674880,
  164412453072674880,
  164412590478073920,
  164412590478073920,
  164412453072674880,
  164412453072674880,
  164412590478073920,
  164412590478073920,
  164403796532535360,
  164403796532535360,
  164412590478073920,
  164412590478073920,
  164403796532535360,
  164403796532535360,
  164412590478073920,
  164412590478073920,
  164412453072674880,
  164412453072674880,
  164403796532535360,
  164403796532535360,
  164403659127136320,
  164403659127136320,
  164412590478073920,
  164412590478073920,
  164412590478073920,
  164412590478073920,
  164412590478073920,
  164412590478073920,
  164412590478073920,
  164412590478073920,
  164403796532535360,
  164403796532535360,
  164412590478073920,
  164412590478073920,
  164403796532535360,
  164403796532535360,
  164412590478073920,
  164412590478073920,
  164412590478073920,
  164412590478073920,
  164412590478073920,
  164412590478073920,
  164412590478073920,
  164412590478073920,
  164412590478073920,
  164412590478073920,
  164412590478073920,
  164412590478073920,
  164412590478073920,
  164412590478073920,
  164403796532535360,
  164403796532535360,
  164412590478073920,
  164412590478073920,
  164403796532535360,
  164403796532535360,
  164412590478073920,
  164412590478073920,
  164403796532535360,
  164403796532535360,
  164412590478073920,
  164412590478073920,
  164403796532535360,
  164403796532535360,
  164412590478073920,
  164412590478073920,
  164412590444527680,
  164412590444527680,
  164412590478073920,
  164412590478073920,
  164412590444527680,
  164412590444527680,
  164403796532535360,
  164403796532535360,
  164403796498989120,
  164403796498989120,
  164412590478073920,
  164412590478073920,
  164412590478073920,
  164412590478073920,
  164412590478073920,
  164412590478073920,
  164412590478073920,
  164412590478073920,
  164412453072674880,
  164412453072674880,
  164412590478073920,
  164412590478073920,
  164412453072674880,
  164412453072674880,
  164412590478073920,
  164412590478073920,
  164412590478073920,
  164412590478073920,
  164412590478073920,
  164412590478073920,
  164412590478073920,
  164412590478073920,
  164412590478073920,
  164412590478073920,
  164412590478073920,
  164412590478073920,
  164412590478073920,
  164412590478073920,
  164412590478073920,
  164412590478073920,
  164412590478073920,
  164412590478073920,
  164412590478073920,
  164412590478073920,
  164412590444527680,
  164412590444527680,
  664280976241227210816,
  664280976241227210816,
  664280976241193664576,
  664280976241193664576,
  664280976239080251456,
  664280976239080251456,
  664280976239046705216,
  664280976239046705216,
  811818900033884659776,
  811818900033884659776,
  811818899896479260736,
  811818899896479260736,
  811818900031737700416,
  811818900031737700416,
  811818899894332301376,
  811818899894332301376,
  664280976241227210816,
  664280976241227210816,
  664280976239080251456,
  664280976239080251456,
  811818900033884659776,
  811818900033884659776,
  811818900031737700416,
  811818900031737700416,
  664280976241227210816,
  664280976241227210816,
  664280976241193664576,
  664280976241193664576,
  811818900033884659776,
  811818900033884659776,
  811818899896479260736,
  811818899896479260736,
  811818900033884659776,
  811818900033884659776,
  811818899896479260736,
  811818899896479260736,
  664280976241227210816,
  664280976241227210816,
  811818900033884659776,
  811818900033884659776,
  811818900033884659776,
  811818900033884659776,
  811818900033884659776,
  811818900033884659776,
  811818899896479260736,
  811818899896479260736,
  811818882441699663936,
  811818882441699663936,
  811818882304294264896,
  811818882304294264896,
  811818900033884659776,
  811818900033884659776,
  811818882441699663936,
  811818882441699663936,
  823350366879766814784,
  823350366879766814784,
  823350366877619855424,
  823350366877619855424,
  823350366879766814784,
  823350366879766814784,
  823350366879766814784,
  823350366879766814784,
  823350366877619855424,
  823350366877619855424,
  823350366879766814784,
  823350366879766814784,
  823350366879766814784,
  823350366879766814784,
  823350366879733268544,
  823350366879733268544,
  823350366877619855424,
  823350366877619855424,
  823350366877586309184,
  823350366877586309184,
  675812443087109365824,
  675812443087109365824,
  675812443087075819584,
  675812443087075819584,
  675812443084962406464,
  675812443084962406464,
  675812443084928860224,
  675812443084928860224,
  823350366879766814784,
  823350366879766814784,
  823350366879733268544,
  823350366879733268544,
  675812443087109365824,
  675812443087109365824,
  675812443087075819584,
  675812443087075819584,
  823350366879766814784,
  823350366879766814784,
  823350366877619855424,
  823350366877619855424,
  823350366879766814784,
  823350366879766814784,
  823350366879766814784,
  823350366879766814784,
  823350366604888924224,
  823350366604888924224,
  823350366877619855424,
  823350366877619855424,
  823350366602741964864,
  823350366602741964864,
  675812443087109365824,
  675812443087109365824,
  675812442812231475264,
  675812442812231475264,
  675812443084962406464,
  675812443084962406464,
  675812442810084515904,
  675812442810084515904,
  823350366879766814784,
  823350366879766814784,
  823350366604888924224,
  823350366604888924224,
  675812443087109365824,
  675812443087109365824,
  675812442812231475264,
  675812442812231475264,
  823350366879766814784,
  823350366879766814784,
  823350366742361415744,
  823350366742361415744,
  823350366877619855424,
  823350366877619855424,
  823350366740214456384,
  823350366740214456384,
  675812443087109365824,
  675812443087109365824,
  675812442949703966784,
  675812442949703966784,
  675812443084962406464,
  675812443084962406464,
  675812442947557007424,
  675812442947557007424,
  823350366879766814784,
  823350366879766814784,
  823350366742361415744,
  823350366742361415744,
  675812443087109365824,
  675812443087109365824,
  675812442949703966784,
  675812442949703966784,
  675812443087109365824,
  675812443087109365824,
  675812443084962406464,
  675812443084962406464,
  675812443087109365824,
  675812443087109365824,
  675812442949703966784,
  675812442949703966784,
  675812443084962406464,
  675812443084962406464,
  675812442947557007424,
  675812442947557007424,
  823350366879766814784,
  823350366879766814784,
  821045086820506542144,
  821045086820506542144,
  675812443087109365824,
  675812443087109365824,
  823350366879766814784,
  823350366879766814784,
  673507163027849093184,
  673507163027849093184,
  675812443087109365824,
  675812443087109365824,
  675812442949703966784,
  675812442949703966784,
  823350366879766814784,
  823350366879766814784,
  823350366742361415744,
  823350366742361415744,
  673507163027849093184,
  673507163027849093184,
  673507162890443694144,
  673507162890443694144,
  675812443087109365824,
  675812443087109365824,
  675812443084962406464,
  675812443084962406464,
  823350366879766814784,
  823350366879766814784,
  821045086820506542144,
  821045086820506542144,
  675812443087109365824,
  675812443087109365824,
  823350366879766814784,
  823350366879766814784,
  673507163027849093184,
  673507163027849093184,
  675812443087109365824,
  675812443087109365824]
def ccdq_t4_abbbabbb_cert_7 : List Nat := [675812443084962406464,
  675812443084962406464,
  675812443087109365824,
  675812443087109365824,
  675812443084962406464,
  675812443084962406464,
  823350366879766814784,
  823350366879766814784,
  823350366877619855424,
  823350366877619855424,
  823350366879766814784,
  823350366879766814784,
  823350366877619855424,
  823350366877619855424,
  823350366879766814784,
  823350366879766814784,
  821045086820506542144,
  821045086820506542144,
  675812443087109365824,
  675812443087109365824,
  823350366879766814784,
  823350366879766814784,
  673507163027849093184,
  673507163027849093184,
  675812443087109365824,
  675812443087109365824,
  823350366879766814784,
  823350366879766814784,
  673507163027849093184,
  673507163027849093184,
  823350366879766814784,
  823350366879766814784,
  823350366879766814784,
  823350366879766814784,
  821045086820506542144,
  821045086820506542144,
  823350366879766814784,
  823350366879766814784,
  823350366879733268544,
  823350366879733268544,
  823350366877619855424,
  823350366877619855424,
  823350366877586309184,
  823350366877586309184,
  823350366879766814784,
  823350366879766814784,
  823350366879733268544,
  823350366879733268544,
  823350366877619855424,
  823350366877619855424,
  823350366877586309184,
  823350366877586309184,
  823350366879766814784,
  823350366879766814784,
  823350366879733268544,
  823350366879733268544,
  823350366879766814784,
  823350366879766814784,
  823350366879733268544,
  823350366879733268544,
  821045086820506542144,
  821045086820506542144,
  821045086820472995904,
  821045086820472995904,
  675812443087109365824,
  675812443087109365824,
  821045086820506542144,
  821045086820506542144,
  673507163027849093184,
  673507163027849093184,
  673507163027849093184,
  673507163027849093184,
  673507163027815546944,
  673507163027815546944,
  675812443087109365824,
  675812443087109365824,
  675812443087075819584,
  675812443087075819584,
  675812443087109365824,
  675812443087109365824,
  821045086820506542144,
  821045086820506542144,
  673507163027849093184,
  673507163027849093184,
  675812443087109365824,
  675812443087109365824,
  675812443087075819584,
  675812443087075819584,
  675812443084962406464,
  675812443084962406464,
  675812443084928860224,
  675812443084928860224,
  823350366879766814784,
  823350366879766814784,
  823350366879733268544,
  823350366879733268544,
  823350366877619855424,
  823350366877619855424,
  823350366877586309184,
  823350366877586309184,
  821045086820506542144,
  821045086820506542144,
  821045086683101143104,
  821045086683101143104,
  821045086818359582784,
  821045086818359582784,
  821045086680954183744,
  821045086680954183744,
  675812443087109365824,
  675812443087109365824,
  675812443087075819584,
  675812443087075819584,
  823350366879766814784,
  823350366879766814784,
  823350366879733268544,
  823350366879733268544,
  823350366879766814784,
  823350366879766814784,
  823350366879733268544,
  823350366879733268544,
  821045086820506542144,
  821045086820506542144,
  821045086820472995904,
  821045086820472995904,
  821045086820506542144,
  821045086820506542144,
  821045086683101143104,
  821045086683101143104,
  821045086820506542144,
  821045086820506542144,
  821045086683101143104,
  821045086683101143104,
  823350366879766814784,
  823350366879766814784,
  823350366742361415744,
  823350366742361415744,
  821045086820506542144,
  821045086820506542144,
  821045086818359582784,
  821045086818359582784,
  675812443087109365824,
  675812443087109365824,
  821045086820506542144,
  821045086820506542144,
  673507163027849093184,
  673507163027849093184,
  673507163027849093184,
  673507163027849093184,
  675812443087109365824,
  675812443087109365824,
  821045086820506542144,
  821045086820506542144,
  821045086820506542144,
  821045086820506542144,
  823350366879766814784,
  823350366879766814784,
  675812443087109365824,
  675812443087109365824,
  675812442812231475264,
  675812442812231475264,
  675812443084962406464,
  675812443084962406464,
  675812442810084515904,
  675812442810084515904,
  823350366879766814784,
  823350366879766814784,
  823350366604888924224,
  823350366604888924224,
  823350366877619855424,
  823350366877619855424,
  823350366602741964864,
  823350366602741964864,
  675812443087109365824,
  675812443087109365824,
  675812442812231475264,
  675812442812231475264,
  823350366879766814784,
  823350366879766814784,
  823350366604888924224,
  823350366604888924224,
  823350366879766814784,
  823350366879766814784,
  823350366604888924224,
  823350366604888924224,
  821045086820506542144,
  821045086820506542144,
  821045086545628651584,
  821045086545628651584,
  675812443087109365824,
  675812443087109365824,
  675812442949703966784,
  675812442949703966784,
  675812443084962406464,
  675812443084962406464,
  675812442947557007424,
  675812442947557007424,
  823350366879766814784,
  823350366879766814784,
  823350366742361415744,
  823350366742361415744,
  823350366877619855424,
  823350366877619855424,
  823350366740214456384,
  823350366740214456384,
  675812443087109365824,
  675812443087109365824,
  675812442949703966784,
  675812442949703966784,
  823350366879766814784,
  823350366879766814784,
  823350366742361415744,
  823350366742361415744,
  823350366879766814784,
  823350366879766814784,
  823350366742361415744,
  823350366742361415744,
  821045086820506542144,
  821045086820506542144,
  821045086683101143104,
  821045086683101143104,
  823350366879766814784,
  823350366879766814784,
  821045086820506542144,
  821045086820506542144,
  823350366879766814784,
  823350366879766814784,
  673507163027849093184,
  673507163027849093184,
  823350366879766814784,
  823350366879766814784,
  823350366742361415744,
  823350366742361415744,
  673507163027849093184,
  673507163027849093184,
  673507162890443694144,
  673507162890443694144,
  823350366879766814784,
  823350366879766814784,
  821045086820506542144,
  821045086820506542144,
  823350366879766814784,
  823350366879766814784,
  673507163027849093184,
  673507163027849093184,
  823350366879766814784,
  823350366879766814784,
  821045086820506542144,
  821045086820506542144,
  823350366879766814784,
  823350366879766814784,
  673507163027849093184,
  673507163027849093184,
  823350366879766814784,
  823350366879766814784,
  673507163027849093184,
  673507163027849093184,
  821045086820506542144,
  821045086820506542144,
  821045086820506542144,
  821045086820506542144,
  821045086820472995904,
  821045086820472995904,
  675812443087109365824,
  675812443087109365824,
  821045086820506542144,
  821045086820506542144,
  673507163027849093184,
  673507163027849093184,
  673507163027849093184,
  673507163027849093184,
  673507163027815546944,
  673507163027815546944,
  675812443087109365824,
  675812443087109365824,
  675812443087075819584,
  675812443087075819584,
  675812443087109365824,
  675812443087109365824,
  821045086820506542144,
  821045086820506542144,
  673507163027849093184,
  673507163027849093184,
  823350366879766814784,
  823350366879766814784,
  823350366879733268544,
  823350366879733268544,
  821045086820506542144,
  821045086820506542144,
  821045086820472995904,
  821045086820472995904,
  821045086820506542144,
  821045086820506542144,
  821045086683101143104,
  821045086683101143104,
  823350366879766814784,
  823350366879766814784,
  823350366742361415744,
  823350366742361415744,
  675812443087109365824,
  675812443087109365824,
  821045086820506542144,
  821045086820506542144,
  673507163027849093184,
  673507163027849093184,
  673507163027849093184,
  673507163027849093184,
  675812443087109365824,
  675812443087109365824,
  821045086820506542144,
  821045086820506542144,
  823350366879766814784,
  823350366879766814784,
  823350366879766814784,
  823350366879766814784,
  823350366604888924224,
  823350366604888924224,
  821045086820506542144,
  821045086820506542144,
  821045086545628651584,
  821045086545628651584,
  823350366879766814784,
  823350366879766814784,
  823350366742361415744,
  823350366742361415744,
  821045086820506542144,
  821045086820506542144,
  821045086683101143104,
  821045086683101143104,
  823350366879766814784,
  823350366879766814784,
  821045086820506542144,
  821045086820506542144,
  823350366879766814784,
  823350366879766814784,
  673507163027849093184,
  673507163027849093184,
  823350366879766814784,
  823350366879766814784,
  823350366742361415744,
  823350366742361415744,
  673507163027849093184,
  673507163027849093184,
  673507162890443694144,
  673507162890443694144,
  823350366879766814784,
  823350366879766814784,
  821045086820506542144,
  821045086820506542144,
  823350366879766814784,
  823350366879766814784,
  673507163027849093184,
  673507163027849093184,
  823350366879766814784,
  823350366879766814784,
  821045086820506542144,
  821045086820506542144,
  823350366879766814784,
  823350366879766814784,
  673507163027849093184,
  673507163027849093184,
  823350366879766814784,
  823350366879766814784,
  673507163027849093184,
  673507163027849093184,
  821045086820506542144,
  821045086820506542144,
  821045086820506542144,
  821045086820506542144,
  821045086820472995904,
  821045086820472995904,
  675812443087109365824,
  675812443087109365824,
  821045086820506542144,
  821045086820506542144,
  673507163027849093184,
  673507163027849093184,
  673507163027849093184,
  673507163027849093184,
  673507163027815546944,
  673507163027815546944,
  675812443087109365824,
  675812443087109365824,
  675812443087075819584,
  675812443087075819584,
  675812443087109365824,
  675812443087109365824,
  821045086820506542144,
  821045086820506542144,
  673507163027849093184,
  673507163027849093184,
  823350366879766814784,
  823350366879766814784,
  823350366879733268544,
  823350366879733268544,
  821045086820506542144,
  821045086820506542144,
  821045086820472995904,
  821045086820472995904,
  821045086820506542144,
  821045086820506542144]
def ccdq_t4_abbbabbb_cert_8 : List Nat := [821045086683101143104,
  821045086683101143104,
  823350366879766814784,
  823350366879766814784,
  823350366742361415744,
  823350366742361415744,
  675812443087109365824,
  675812443087109365824,
  821045086820506542144,
  821045086820506542144,
  673507163027849093184,
  673507163027849093184,
  673507163027849093184,
  673507163027849093184,
  675812443087109365824,
  675812443087109365824,
  821045086820506542144,
  821045086820506542144,
  823350366879766814784,
  823350366879766814784,
  823350366879766814784,
  823350366879766814784,
  823350366604888924224,
  823350366604888924224,
  821045086820506542144,
  821045086820506542144,
  821045086545628651584,
  821045086545628651584,
  823350366879766814784,
  823350366879766814784,
  823350366742361415744,
  823350366742361415744,
  821045086820506542144,
  821045086820506542144,
  821045086683101143104,
  821045086683101143104]

/-- Check ccdq_t4_abbbabbb. C83 -/
theorem ccdq_t4_abbbabbb : isZeroSpin kinds [aᵥ, bᵥ, cᵥ, dᵥ, iₒ, jₒ, kₒ, lₒ] 4 [false, true, true, true, false, true, true, true]
    (Prog.outs [4, 5, 6, 7, 0, 1, 2, 3] (Prog.thin split_ccdq_t4 (Prog.ideal (ccdq_t4eqns_0))))
    (Prog.scale (-1) (Prog.ideal (ccdq_t4_abbbabbb)))
    (ccdq_t4_abbbabbb_cert_0 ++ (ccdq_t4_abbbabbb_cert_1 ++ (ccdq_t4_abbbabbb_cert_2 ++ (ccdq_t4_abbbabbb_cert_3 ++ (ccdq_t4_abbbabbb_cert_4 ++ (ccdq_t4_abbbabbb_cert_5 ++ (ccdq_t4_abbbabbb_cert_6 ++ (ccdq_t4_abbbabbb_cert_7 ++ (ccdq_t4_abbbabbb_cert_8))))))))) = true := by decide +kernel

end Verif.Cert
