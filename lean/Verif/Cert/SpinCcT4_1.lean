import Verif.Ein.Spin
import Verif.Cert.Thin
import Verif.Gen.SiCcdqT4_1

/-! Written by `/verif/tools/gen.py`. Checks of einsum programs. -/

set_option maxRecDepth 100000

namespace Verif.Cert

open Verif.Ein Verif.Ein.N


open Verif.Gen

def ccdq_t4_aaabaaab_cert_0 : List Nat := [2283003892736064,
  2283003892736064,
  2283003892727874,
  2283003892727874,
  2283003859173444,
  2283003825635394,
  2282866420219974,
  2282591609438274,
  823350366879766814784,
  823350366879766814784,
  821045086820506542144,
  821045086820506542144,
  673507163027849093184,
  673507163027849093184,
  823350366879766806594,
  823350366879766806594,
  821045086820506533954,
  821045086820506533954,
  673507163027849084994,
  673507163027849084994,
  823350366879733252164,
  823350366879699714114,
  821045086820472979524,
  821045086820439441474,
  673507163027815530564,
  673507163027781992514,
  823350366742294298694,
  823350366467483516994,
  675812442949636849734,
  675812442674826068034,
  823350366742294298694,
  823350366467483516994,
  162160790664388672,
  162160790664388672,
  162160790663864512,
  162160790663864512,
  162160788516380992,
  162160786369945792,
  162151992423358912,
  162134404533330112,
  823350366879766814784,
  823350366879766814784,
  675812443087109365824,
  675812443087109365824,
  673507163027849093184,
  673507163027849093184,
  823350366879766290624,
  823350366879766290624,
  675812443087108841664,
  675812443087108841664,
  673507163027848569024,
  673507163027848569024,
  823350366877618807104,
  823350366875472371904,
  675812443084961358144,
  675812443082814922944,
  673507163025701085504,
  673507163023554650304,
  823350358081525785024,
  823350340493635756224,
  821045078022265512384,
  821045060434375483584,
  823350358081525785024,
  823350340493635756224,
  823350366879766814784,
  823350366879766814784,
  675812443087109365824,
  675812443087109365824,
  823350366879733268544,
  823350366879733268544,
  675812443087075819584,
  675812443087075819584,
  823350366742294323264,
  823350366604922470464,
  823350366879766806594,
  823350366879766806594,
  675812443087109357634,
  675812443087109357634,
  823350366879733252164,
  823350366879699714114,
  675812443087075803204,
  675812443087042265154,
  823350366879699714114,
  823350366879733252164,
  675812443087042265154,
  675812443087075803204,
  823350366742260768834,
  823350366604922454084,
  823350366879699705924,
  823350366879699705924,
  675812443087042256964,
  675812443087042256964,
  823350366604821815364,
  823350366604821815364,
  823350366877619855424,
  823350366877619855424,
  675812443084962406464,
  675812443084962406464,
  823350366877586309184,
  823350366877586309184,
  675812443084928860224,
  675812443084928860224,
  823350366740147363904,
  823350366602775511104,
  823350366877619847234,
  823350366877619847234,
  675812443084962398274,
  675812443084962398274,
  823350366877586292804,
  823350366877552754754,
  675812443084928843844,
  675812443084895305794,
  823350366877552754754,
  823350366877586292804,
  675812443084895305794,
  675812443084928843844,
  823350366740113809474,
  823350366602775494724,
  823350366877552746564,
  823350366877552746564,
  675812443084895297604,
  675812443084895297604,
  823350366602674856004,
  823350366602674856004,
  821045078022267084864,
  821045069230468505664,
  673507154229609635904,
  673507145437811056704,
  821045078022233538624,
  821045069230434959424,
  673507154229576089664,
  673507145437777510464,
  821045078022267076674,
  821045069230468497474,
  673507154229609627714,
  673507145437811048514,
  821045078022233522244,
  821045069230401404994,
  673507154229576073284,
  673507145437743956034,
  821045077884794568774,
  821045068818185207874,
  821045078022199984194,
  821045069230434943044,
  673507154229542535234,
  673507145437777494084,
  821045078022199976004,
  821045069230401396804,
  673507154229542527044,
  673507145437743947844,
  821045077884761022534,
  821045068818185199684,
  821045077747322077254,
  821045068818118107204,
  823350366875472371904,
  823350366877618807104,
  675812443082814922944,
  675812443084961358144,
  823350366875438825664,
  823350366877585260864,
  675812443082781376704,
  675812443084927811904,
  823350366737999880384,
  823350366602774462784,
  823350366875472363714,
  823350366877618798914,
  675812443082814914754,
  675812443084961349954,
  823350366875438809284,
  823350366877551706434,
  675812443082781360324,
  675812443084894257474,
  823350366875405271234,
  823350366877585244484,
  675812443082747822274,
  675812443084927795524,
  823350366737966325954,
  823350366602774446404,
  823350366875405263044,
  823350366877551698244,
  675812443082747814084,
  675812443084894249284,
  823350366600527372484,
  823350366602673807684,
  821045078020119601344,
  821045069230467457344,
  673507154227462152384,
  673507145437810008384,
  821045078020086055104,
  821045069230433911104,
  673507154227428606144,
  673507145437776462144,
  821045078020119593154,
  821045069230467449154,
  673507154227462144194,
  673507145437810000194,
  821045078020086038724,
  821045069230400356674,
  673507154227428589764,
  673507145437742907714,
  821045077882647085254,
  821045068818184159554,
  821045078020052500674,
  821045069230433894724,
  673507154227395051714,
  673507145437776445764,
  821045078020052492484,
  821045069230400348484,
  673507154227395043524,
  673507145437742899524,
  821045077882613539014,
  821045068818184151364,
  821045077745174593734,
  821045068818117058884,
  821045069224026579264,
  821045069224026579264,
  673507145431369130304,
  673507145431369130304,
  821045069223993033024,
  821045069223993033024,
  673507145431335584064,
  673507145431335584064,
  821045069224026571074,
  821045069224026571074,
  673507145431369122114,
  673507145431369122114,
  821045069223993016644,
  821045069223959478594,
  673507145431335567684,
  673507145431302029634,
  821045069086554063174,
  821045068811743281474,
  821045069223959478594,
  821045069223993016644,
  673507145431302029634,
  673507145431335567684,
  821045069223959470404,
  821045069223959470404,
  673507145431302021444,
  673507145431302021444,
  821045069086520516934,
  821045068811743273284,
  821045068949081571654,
  821045068811676180804,
  11531498049961205824,
  11531498049961205824,
  11531498049927659584,
  11531498049927659584,
  11531497912488714304,
  11531497775116861504,
  11531498049961197634,
  11531498049961197634,
  11531498049927643204,
  11531498049894105154,
  11531498049894105154,
  11531498049927643204,
  11531497912455159874,
  11531497775116845124,
  11531498049894096964,
  11531498049894096964,
  11531497775016206404,
  11531497775016206404,
  11531498047814246464,
  11531498047814246464,
  11531498047780700224,
  11531498047780700224,
  11531497910341754944,
  11531497772969902144,
  11531498047814238274,
  11531498047814238274,
  11531498047780683844,
  11531498047747145794,
  11531498047747145794,
  11531498047780683844,
  11531497910308200514,
  11531497772969885764,
  11531498047747137604,
  11531498047747137604,
  11531497772869247044,
  11531497772869247044,
  9226209192461475904,
  9226200400662896704,
  9226209192427929664,
  9226200400629350464,
  9226209192461467714,
  9226200400662888514,
  9226209192427913284,
  9226200400595796034,
  9226209054988959814,
  9226199988379598914,
  9226209192394375234,
  9226200400629334084,
  9226209192394367044,
  9226200400595787844,
  9226209054955413574,
  9226199988379590724,
  9226208917516468294,
  9226199988312498244,
  11531498045666762944,
  11531498047813198144,
  11531498045633216704,
  11531498047779651904,
  11531497908194271424,
  11531497772968853824,
  11531498045666754754,
  11531498047813189954,
  11531498045633200324,
  11531498047746097474,
  11531498045599662274,
  11531498047779635524,
  11531497908160716994,
  11531497772968837444,
  11531498045599654084,
  11531498047746089284,
  11531497770721763524,
  11531497772868198724,
  9226209190313992384,
  9226200400661848384,
  9226209190280446144,
  9226200400628302144,
  9226209190313984194,
  9226200400661840194,
  9226209190280429764,
  9226200400594747714,
  9226209052841476294,
  9226199988378550594,
  9226209190246891714,
  9226200400628285764,
  9226209190246883524,
  9226200400594739524,
  9226209052807930054,
  9226199988378542404,
  9226208915368984774,
  9226199988311449924,
  9226200394220970304,
  9226200394220970304,
  9226200394187424064,
  9226200394187424064,
  9226200394220962114,
  9226200394220962114,
  9226200394187407684,
  9226200394153869634,
  9226200256748454214,
  9226199981937672514,
  9226200394153869634,
  9226200394187407684,
  9226200394153861444,
  9226200394153861444,
  9226200256714907974,
  9226199981937664324,
  9226200119275962694,
  9226199981870571844,
  823350366879766814784,
  823350366879766814784,
  823350366879766814784,
  823350366879766814784,
  675812442949703966784,
  675812442949703966784,
  675812442812265021504,
  675812442949636874304,
  823350366879766806594,
  823350366879766806594,
  823350366879766806594,
  823350366879766806594,
  675812442949703958594,
  675812442949703958594,
  823350366879733252164,
  823350366879699714114,
  823350366879733252164,
  823350366879699714114,
  675812442812265005124,
  675812442949603319874,
  675812442674826068034,
  675812442949636849734,
  675812442674826059844,
  675812442949603303494,
  673507154096498155584,
  673507154096498155584,
  823350357948415877184,
  823350357948415877184,
  673507153959059210304,
  673507154096431063104,
  823350357810976931904,
  823350357948348784704,
  673507154096498147394,
  673507154096498147394,
  823350357948415868994,
  823350357948415868994,
  673507153959059193924,
  673507154096397508674,
  823350357810976915524,
  823350357948315230274,
  673507153821620256834,
  673507154096431038534,
  823350357673537978434,
  823350357948348760134,
  673507153821620248644,
  673507154096397492294,
  823350357673537970244,
  823350357948315213894]
def ccdq_t4_aaabaaab_cert_1 : List Nat := [823350366877619855424,
  823350366877619855424,
  823350366877619855424,
  823350366877619855424,
  675812442947557007424,
  675812442947557007424,
  675812442810118062144,
  675812442947489914944,
  823350366877619847234,
  823350366877619847234,
  823350366877619847234,
  823350366877619847234,
  675812442947556999234,
  675812442947556999234,
  823350366877586292804,
  823350366877552754754,
  823350366877586292804,
  823350366877552754754,
  675812442810118045764,
  675812442947456360514,
  675812442672679108674,
  675812442947489890374,
  675812442672679100484,
  675812442947456344134,
  821045078022267084864,
  821045069230468505664,
  673507154092204236864,
  673507145300405657664,
  823350357944121958464,
  823350349152323379264,
  673507153954765291584,
  673507145300338565184,
  823350357806683013184,
  823350349152256286784,
  821045078022267076674,
  821045069230468497474,
  673507154092204228674,
  673507145300405649474,
  823350357944121950274,
  823350349152323371074,
  821045078022233522244,
  821045069230401404994,
  821045077884794568774,
  821045068818185207874,
  823350357944054841414,
  823350348877445480514,
  673507153954765275204,
  673507145300305010754,
  823350357806682996804,
  823350349152222732354,
  821045077747389169734,
  821045068818151661634,
  823350357806649442374,
  823350348877411934274,
  673507153817326338114,
  673507145300338540614,
  823350357669244059714,
  823350349152256262214,
  673507153817326329924,
  673507145300304994374,
  823350357669244051524,
  823350349152222715974,
  821045077609950224454,
  821045068818151645254,
  823350357669210497094,
  823350348877411917894,
  673507145300405657664,
  673507154092204236864,
  823350349152323379264,
  823350357944121958464,
  673507145162966712384,
  673507154092137144384,
  823350349014884433984,
  823350357944054865984,
  673507145300405649474,
  673507154092204228674,
  823350349152323371074,
  823350357944121950274,
  673507145162966696004,
  673507154092103589954,
  823350349014884417604,
  823350357944021311554,
  673507145025527758914,
  673507154092137119814,
  823350348877445480514,
  823350357944054841414,
  673507145025527750724,
  673507154092103573574,
  823350348877445472324,
  823350357944021295174,
  821045069228321546304,
  821045069228321546304,
  673507145298258698304,
  673507145298258698304,
  675812425357518970944,
  675812425357518970944,
  673507145160819753024,
  673507145298191605824,
  675812425220080025664,
  675812425357451878464,
  821045069228321538114,
  821045069228321538114,
  673507145298258690114,
  673507145298258690114,
  675812425357518962754,
  675812425357518962754,
  821045069228287983684,
  821045069228254445634,
  673507145298191581254,
  673507145023380799554,
  823350349150109302854,
  823350348875298521154,
  673507145160819736644,
  673507145298158051394,
  675812425220080009284,
  675812425357418324034,
  673507145160786182214,
  673507145023347253314,
  823350349012703903814,
  823350348875264974914,
  673507145023380799554,
  673507145298191581254,
  675812425082641072194,
  675812425357451853894,
  673507145023380791364,
  673507145298158035014,
  675812425082641064004,
  675812425357418307654,
  673507145023347236934,
  673507145023347236934,
  823350348875264958534,
  823350348875264958534,
  823350366875472371904,
  823350366877618807104,
  823350366875472371904,
  823350366877618807104,
  675812442945409523904,
  675812442947555959104,
  675812442807970578624,
  675812442947488866624,
  823350366875472363714,
  823350366877618798914,
  823350366875472363714,
  823350366877618798914,
  675812442945409515714,
  675812442947555950914,
  823350366875438809284,
  823350366877551706434,
  823350366875438809284,
  823350366877551706434,
  675812442807970562244,
  675812442947455312194,
  675812442670531625154,
  675812442947488842054,
  675812442670531616964,
  675812442947455295814,
  821045078020119601344,
  821045069230467457344,
  673507154090056753344,
  673507145300404609344,
  823350357941974474944,
  823350349152322330944,
  673507153952617808064,
  673507145300337516864,
  823350357804535529664,
  823350349152255238464,
  821045078020119593154,
  821045069230467449154,
  673507154090056745154,
  673507145300404601154,
  823350357941974466754,
  823350349152322322754,
  821045078020086038724,
  821045069230400356674,
  821045077882647085254,
  821045068818184159554,
  823350357941907357894,
  823350348877444432194,
  673507153952617791684,
  673507145300303962434,
  823350357804535513284,
  823350349152221684034,
  821045077745241686214,
  821045068818150613314,
  823350357804501958854,
  823350348877410885954,
  673507153815178854594,
  673507145300337492294,
  823350357667096576194,
  823350349152255213894,
  673507153815178846404,
  673507145300303946054,
  823350357667096568004,
  823350349152221667654,
  821045077607802740934,
  821045068818150596934,
  823350357667063013574,
  823350348877410869574,
  821045069224026579264,
  821045069224026579264,
  673507145293963731264,
  673507145293963731264,
  821045069086621180224,
  821045069086621180224,
  673507145156524785984,
  673507145293896638784,
  821045068949182234944,
  821045069086554087744,
  821045069224026571074,
  821045069224026571074,
  673507145293963723074,
  673507145293963723074,
  821045069086621172034,
  821045069086621172034,
  821045069223993016644,
  821045069223959478594,
  821045069086554063174,
  821045068811743281474,
  823350349145814335814,
  823350348871003554114,
  673507145156524769604,
  673507145293863084354,
  821045068949182218564,
  821045069086520533314,
  821045068949148664134,
  821045068811709735234,
  823350349008408936774,
  823350348870970007874,
  673507145019085832514,
  673507145293896614214,
  821045068811743281474,
  821045069086554063174,
  673507145019085824324,
  673507145293863067974,
  821045068811743273284,
  821045069086520516934,
  821045068811709718854,
  821045068811709718854,
  823350348870969991494,
  823350348870969991494,
  673507136504312635584,
  673507154092202664384,
  823350340356230357184,
  823350357944120385984,
  673507136366873690304,
  673507154092135571904,
  823350340218791411904,
  823350357944053293504,
  673507136504312627394,
  673507154092202656194,
  823350340356230348994,
  823350357944120377794,
  673507136366873673924,
  673507154092102017474,
  823350340218791395524,
  823350357944019739074,
  673507136229434736834,
  673507154092135547334,
  823350340081352458434,
  823350357944053268934,
  673507136229434728644,
  673507154092102001094,
  823350340081352450244,
  823350357944019722694,
  821045060432228524224,
  821045069228319973824,
  673507136502165676224,
  673507145298257125824,
  673507136502165676224,
  673507145298257125824,
  673507136364726730944,
  673507145298190033344,
  673507136364726730944,
  673507145298190033344,
  821045060432228516034,
  821045069228319965634,
  673507136502165668034,
  673507145298257117634,
  673507136502165668034,
  673507145298257117634,
  821045060432194961604,
  821045069228252873154,
  673507136502098559174,
  673507145023379227074,
  823350340354016280774,
  823350348875296948674,
  673507136364726714564,
  673507145298156478914,
  673507136364726714564,
  673507145298156478914,
  673507136364693160134,
  673507145023345680834,
  823350340216610881734,
  823350348875263402434,
  673507136227287777474,
  673507145298190008774,
  673507136227287777474,
  673507145298190008774,
  673507136227287769284,
  673507145298156462534,
  673507136227287769284,
  673507145298156462534,
  673507136227254214854,
  673507145023345664454,
  823350340079171936454,
  823350348875263386054,
  821045060430081040704,
  821045069224026055104,
  673507136500018192704,
  673507145293963207104,
  673507136500018192704,
  673507145293963207104,
  673507136362579247424,
  673507145293896114624,
  673507136362579247424,
  673507145293896114624,
  821045060430081032514,
  821045069224026046914,
  673507136500018184514,
  673507145293963198914,
  673507136500018184514,
  673507145293963198914,
  821045060430047478084,
  821045069223958954434,
  673507136499951075654,
  673507145019085308354,
  823350340351868797254,
  823350348871003029954,
  673507136362579231044,
  673507145293862560194,
  673507136362579231044,
  673507145293862560194,
  673507136362545676614,
  673507145019051762114,
  823350340214463398214,
  823350348870969483714,
  673507136225140293954,
  673507145293896090054,
  673507136225140293954,
  673507145293896090054,
  673507136225140285764,
  673507145293862543814,
  673507136225140285764,
  673507145293862543814,
  673507136225106731334,
  673507145019051745734,
  823350340077024452934,
  823350348870969467334,
  164412590478073920,
  164412590478073920,
  164412453072674880,
  164412453072674880,
  164412315633729600,
  164412453005582400,
  164412590478065730,
  164412590478065730,
  164412453072666690,
  164412453072666690,
  164412590444511300,
  164412590410973250,
  164412315633713220,
  164412452972027970,
  164412178194776130,
  164412453005557830,
  164412178194767940,
  164412452972011590,
  164403659127136320,
  164403659127136320,
  164403521688191040,
  164403659060043840,
  164403659127128130,
  164403659127128130,
  164403521688174660,
  164403659026489410,
  164403384249237570,
  164403659060019270,
  164403384249229380,
  164403659026473030,
  164412588331114560,
  164412588331114560,
  164412450925715520,
  164412450925715520,
  164412313486770240,
  164412450858623040,
  164412588331106370,
  164412588331106370,
  164412450925707330,
  164412450925707330,
  164412588297551940,
  164412588264013890,
  164412313486753860,
  164412450825068610,
  164412176047816770,
  164412450858598470,
  164412176047808580,
  164412450825052230,
  164403792238616640,
  164395000440037440,
  164403654833217600,
  164394863034638400]
def ccdq_t4_aaabaaab_cert_2 : List Nat := [164403517394272320,
  164394862967545920,
  164403792238608450,
  164395000440029250,
  164403654833209410,
  164394863034630210,
  164403792205054020,
  164395000372936770,
  164403654766100550,
  164394588156739650,
  164403517394255940,
  164394862933991490,
  164403517360701510,
  164394588123193410,
  164403379955318850,
  164394862967521350,
  164403379955310660,
  164394862933975110,
  164403379921756230,
  164394588123177030,
  164394863034638400,
  164403654833217600,
  164394725595693120,
  164403654766125120,
  164394863034630210,
  164403654833209410,
  164394725595676740,
  164403654732570690,
  164394588156739650,
  164403654766100550,
  164394588156731460,
  164403654732554310,
  164394998293078080,
  164394998293078080,
  164394860887679040,
  164394860887679040,
  164394723448733760,
  164394860820586560,
  164394998293069890,
  164394998293069890,
  164394860887670850,
  164394860887670850,
  164394998259515460,
  164394998225977410,
  164394860820561990,
  164394586009780290,
  164394723448717380,
  164394860787032130,
  164394723415162950,
  164394585976234050,
  164394586009780290,
  164394860820561990,
  164394586009772100,
  164394860787015750,
  164394585976217670,
  164394585976217670,
  164412586183631040,
  164412588330066240,
  164412448778232000,
  164412450924667200,
  164412311339286720,
  164412450857574720,
  164412586183622850,
  164412588330058050,
  164412448778223810,
  164412450924659010,
  164412586150068420,
  164412588262965570,
  164412311339270340,
  164412450824020290,
  164412173900333250,
  164412450857550150,
  164412173900325060,
  164412450824003910,
  164403790091133120,
  164395000438989120,
  164403652685734080,
  164394863033590080,
  164403515246788800,
  164394862966497600,
  164403790091124930,
  164395000438980930,
  164403652685725890,
  164394863033581890,
  164403790057570500,
  164395000371888450,
  164403652618617030,
  164394588155691330,
  164403515246772420,
  164394862932943170,
  164403515213217990,
  164394588122145090,
  164403377807835330,
  164394862966473030,
  164403377807827140,
  164394862932926790,
  164403377774272710,
  164394588122128710,
  164394993998111040,
  164394993998111040,
  164394856592712000,
  164394856592712000,
  164394719153766720,
  164394856525619520,
  164394993998102850,
  164394993998102850,
  164394856592703810,
  164394856592703810,
  164394993964548420,
  164394993931010370,
  164394856525594950,
  164394581714813250,
  164394719153750340,
  164394856492065090,
  164394719120195910,
  164394581681267010,
  164394581714813250,
  164394856525594950,
  164394581714805060,
  164394856492048710,
  164394581681250630,
  164394581681250630,
  164386066941616320,
  164403654831645120,
  164385929502671040,
  164403654764552640,
  164386066941608130,
  164403654831636930,
  164385929502654660,
  164403654730998210,
  164385792063717570,
  164403654764528070,
  164385792063709380,
  164403654730981830,
  164386202200056000,
  164394998291505600,
  164386064794656960,
  164394860886106560,
  164385927355711680,
  164394860819014080,
  164386202200047810,
  164394998291497410,
  164386064794648770,
  164394860886098370,
  164386202166493380,
  164394998224404930,
  164386064727539910,
  164394586008207810,
  164385927355695300,
  164394860785459650,
  164385927322140870,
  164394585974661570,
  164385789916758210,
  164394860818989510,
  164385789916750020,
  164394860785443270,
  164385789883195590,
  164394585974645190,
  164386200052572480,
  164394993997586880,
  164386062647173440,
  164394856592187840,
  164385925208228160,
  164394856525095360,
  164386200052564290,
  164394993997578690,
  164386062647165250,
  164394856592179650,
  164386200019009860,
  164394993930486210,
  164386062580056390,
  164394581714289090,
  164385925208211780,
  164394856491540930,
  164385925174657350,
  164394581680742850,
  164385787769274690,
  164394856525070790,
  164385787769266500,
  164394856491524550,
  164385787735712070,
  164394581680726470,
  823350366879766814784,
  823350366879766814784,
  823350366879766814784,
  823350366879766814784,
  675812443087109365824,
  675812443087109365824,
  823350366879766806594,
  823350366879766806594,
  823350366879766806594,
  823350366879766806594,
  675812443087109357634,
  675812443087109357634,
  823350366879733252164,
  823350366879699714114,
  823350366879733252164,
  823350366879699714114,
  675812443087075803204,
  675812443087042265154,
  823350366877619855424,
  823350366877619855424,
  823350366877619855424,
  823350366877619855424,
  675812443084962406464,
  675812443084962406464,
  823350366877619847234,
  823350366877619847234,
  823350366877619847234,
  823350366877619847234,
  675812443084962398274,
  675812443084962398274,
  823350366877586292804,
  823350366877552754754,
  823350366877586292804,
  823350366877552754754,
  675812443084928843844,
  675812443084895305794,
  821045078022267084864,
  821045069230468505664,
  673507154229609635904,
  673507145437811056704,
  823350358081527357504,
  823350349289728778304,
  821045078022267076674,
  821045069230468497474,
  673507154229609627714,
  673507145437811048514,
  823350358081527349314,
  823350349289728770114,
  821045078022233522244,
  821045069230401404994,
  673507154229576073284,
  673507145437743956034,
  823350358081493794884,
  823350349289661677634,
  823350357944054841414,
  823350348877445480514,
  823350357944054841414,
  823350348877445480514,
  675812434151397392454,
  675812425084788031554,
  823350366875472371904,
  823350366877618807104,
  823350366875472371904,
  823350366877618807104,
  675812443082814922944,
  675812443084961358144,
  823350366875472363714,
  823350366877618798914,
  823350366875472363714,
  823350366877618798914,
  675812443082814914754,
  675812443084961349954,
  823350366875438809284,
  823350366877551706434,
  823350366875438809284,
  823350366877551706434,
  675812443082781360324,
  675812443084894257474,
  821045078020119601344,
  821045069230467457344,
  673507154227462152384,
  673507145437810008384,
  823350358079379873984,
  823350349289727729984,
  821045078020119593154,
  821045069230467449154,
  673507154227462144194,
  673507145437810000194,
  823350358079379865794,
  823350349289727721794,
  821045078020086038724,
  821045069230400356674,
  673507154227428589764,
  673507145437742907714,
  823350358079346311364,
  823350349289660629314,
  823350357941907357894,
  823350348877444432194,
  823350357941907357894,
  823350348877444432194,
  675812434149249908934,
  675812425084786983234,
  821045069224026579264,
  821045069224026579264,
  673507145431369130304,
  673507145431369130304,
  823350349283286851904,
  823350349283286851904,
  821045069224026571074,
  821045069224026571074,
  673507145431369122114,
  673507145431369122114,
  823350349283286843714,
  823350349283286843714,
  821045069223993016644,
  821045069223959478594,
  673507145431335567684,
  673507145431302029634,
  823350349283253289284,
  823350349283219751234,
  823350349145814335814,
  823350348871003554114,
  823350349145814335814,
  823350348871003554114,
  675812425353156886854,
  675812425078346105154,
  823350366879766814784,
  823350366879766814784,
  823350366879733268544,
  823350366879733268544,
  823350366879699714114,
  823350366879733252164,
  675812434155691335744,
  675812434018319482944,
  675812434155657781314,
  675812434018319466564,
  675812434018218827844,
  675812434018218827844,
  823350366877619855424,
  823350366877619855424,
  823350366877586309184,
  823350366877586309184,
  823350366877552754754,
  823350366877586292804,
  823350358081527357504,
  823350349289728778304,
  821045078022267084864,
  821045069230468505664,
  823350358081493811264,
  823350349289695232064,
  821045078022233538624,
  821045069230434959424,
  675812434151397417024,
  675812425222226985024,
  673507154092137144384,
  673507145162966712384,
  823350358081460256834,
  823350349289695215684,
  821045078022199984194,
  821045069230434943044,
  675812434151363862594,
  675812425222226968644,
  673507154092103589954,
  673507145162966696004,
  675812434013924909124,
  675812425222126329924,
  673507153954664636484,
  673507145162866057284,
  675812425359598837824,
  675812434014025564224,
  675812425359565283394,
  675812434014025547844,
  675812425222126329924,
  675812434013924909124,
  823350349287581818944,
  823350349287581818944,
  821045069228321546304,
  821045069228321546304,
  823350349287548272704,
  823350349287548272704,
  821045069228288000064,
  821045069228288000064,
  675812425357451878464,
  675812425220080025664,
  673507145298191605824,
  673507145160819753024,
  823350349287514718274,
  823350349287548256324,
  821045069228254445634,
  821045069228287983684,
  675812425357418324034,
  675812425220080009284,
  673507145298158051394,
  673507145160819736644,
  675812425219979370564,
  675812425219979370564,
  673507145160719097924,
  673507145160719097924,
  823350366875472371904,
  823350366877618807104,
  823350366875438825664,
  823350366877585260864,
  823350366875405271234,
  823350366877585244484,
  823350358079379873984,
  823350349289727729984,
  821045078020119601344,
  821045069230467457344,
  823350358079346327744,
  823350349289694183744,
  821045078020086055104,
  821045069230433911104,
  675812434149249933504,
  675812425222225936704,
  673507154089989660864,
  673507145162965664064,
  823350358079312773314,
  823350349289694167364]
def ccdq_t4_aaabaaab_cert_3 : List Nat := [821045078020052500674,
  821045069230433894724,
  675812434149216379074,
  675812425222225920324,
  673507154089956106434,
  673507145162965647684,
  675812434011777425604,
  675812425222125281604,
  673507153952517152964,
  673507145162865008964,
  823350349283286851904,
  823350349283286851904,
  821045069224026579264,
  821045069224026579264,
  823350349283253305664,
  823350349283253305664,
  821045069223993033024,
  821045069223993033024,
  675812425353156911424,
  675812425215785058624,
  673507145293896638784,
  673507145156524785984,
  823350349283219751234,
  823350349283253289284,
  821045069223959478594,
  821045069223993016644,
  675812425353123356994,
  675812425215785042244,
  673507145293863084354,
  673507145156524769604,
  675812425215684403524,
  675812425215684403524,
  673507145156424130884,
  673507145156424130884,
  675812416563505815744,
  675812434014023991744,
  675812416563472261314,
  675812434014023975364,
  675812416426033307844,
  675812434013923336644,
  823350340491488796864,
  823350349287580246464,
  821045060432228524224,
  821045069228319973824,
  823350340491455250624,
  823350349287546700224,
  821045060432194977984,
  821045069228286427584,
  675812416561358856384,
  675812425220078453184,
  673507136502098583744,
  673507145160818180544,
  823350340491421696194,
  823350349287546683844,
  821045060432161423554,
  821045069228286411204,
  675812416561325301954,
  675812425220078436804,
  673507136502065029314,
  673507145160818164164,
  675812416423886348484,
  675812425219977798084,
  673507136364626075844,
  673507145160717525444,
  823350340489341313344,
  823350349283286327744,
  821045060430081040704,
  821045069224026055104,
  823350340489307767104,
  823350349283252781504,
  821045060430047494464,
  821045069223992508864,
  675812416559211372864,
  675812425215784534464,
  673507136499951100224,
  673507145156524261824,
  823350340489274212674,
  823350349283252765124,
  821045060430013940034,
  821045069223992492484,
  675812416559177818434,
  675812425215784518084,
  673507136499917545794,
  673507145156524245444,
  675812416421738864964,
  675812425215683879364,
  673507136362478592324,
  673507145156423606724,
  823350366879766814784,
  823350366879766814784,
  823350366877619855424,
  823350366877619855424,
  823350358081527357504,
  823350349289728778304,
  675812434288869908544,
  675812425497071329344,
  821045078022267084864,
  821045069230468505664,
  673507154229609635904,
  673507145437811056704,
  823350366875472371904,
  823350366877618807104,
  823350358079379873984,
  823350349289727729984,
  675812434286722425024,
  675812425497070281024,
  821045078020119601344,
  821045069230467457344,
  673507154227462152384,
  673507145437810008384,
  823350349283286851904,
  823350349283286851904,
  675812425490629402944,
  675812425490629402944,
  821045069224026579264,
  821045069224026579264,
  673507145431369130304,
  673507145431369130304,
  811818900033884659776,
  811818900033884659776,
  664280976241227210816,
  664280976241227210816,
  811818900031737700416,
  811818900031737700416,
  664280976239080251456,
  664280976239080251456,
  811818891235645202496,
  811818882443846623296,
  811818900029590216896,
  811818900031736652096,
  664280976236932767936,
  664280976239079203136,
  811818891233497718976,
  811818882443845574976,
  811818882437404696896,
  811818882437404696896,
  811818900033884659776,
  811818900033884659776,
  811818900033851113536,
  811818900033851113536,
  664280976103754719296,
  664280975966382866496,
  811818900033817559106,
  811818900033851097156,
  664280976103721164866,
  664280975966382850116,
  664280975966282211396,
  664280975966282211396,
  811818900031737700416,
  811818900031737700416,
  811818900031704154176,
  811818900031704154176,
  664280976101607759936,
  664280975964235907136,
  811818900031670599746,
  811818900031704137796,
  664280976101574205506,
  664280975964235890756,
  664280975964135252036,
  664280975964135252036,
  811818891235645202496,
  811818882443846623296,
  811818891235611656256,
  811818882443813077056,
  811818891235578101826,
  811818882443813060676,
  811818900033884135616,
  811818900033884135616,
  811818900033850589376,
  811818900033850589376,
  664280976103754195136,
  664280975966382342336,
  811818900033817034946,
  811818900033850572996,
  664280976103720640706,
  664280975966382325956,
  664280975966281687236,
  664280975966281687236,
  811818900031736652096,
  811818900029590216896,
  811818900031703105856,
  811818900029556670656,
  664280976101606711616,
  664280975962088423616,
  811818900031669551426,
  811818900029556654276,
  664280976101573157186,
  664280975962088407236,
  664280975964134203716,
  664280975961987768516,
  664280967305513689536,
  664280949580251807936,
  664280967305480135106,
  664280949580251791556,
  664280967168041181636,
  664280949580151152836,
  811818900029590216896,
  811818900031736652096,
  811818900029556670656,
  811818900031703105856,
  664280976099460276416,
  664280975964234858816,
  811818900029523116226,
  811818900031703089476,
  664280976099426721986,
  664280975964234842436,
  664280975961987768516,
  664280975964134203716,
  811818891233497718976,
  811818882443845574976,
  811818891233464172736,
  811818882443812028736,
  811818891233430618306,
  811818882443812012356,
  811818900029589692736,
  811818900029589692736,
  811818900029556146496,
  811818900029556146496,
  664280976099459752256,
  664280975962087899456,
  811818900029522592066,
  811818900029556130116,
  664280976099426197826,
  664280975962087883076,
  664280975961987244356,
  664280975961987244356,
  664280967303366730176,
  664280949580251283776,
  664280967303333175746,
  664280949580251267396,
  664280967165894222276,
  664280949580150628676,
  811818882437404696896,
  811818882437404696896,
  811818882437371150656,
  811818882437371150656,
  811818882437337596226,
  811818882437371134276,
  664280958507274232256,
  664280949575957365056,
  664280958507240677826,
  664280949575957348676,
  664280958369801724356,
  664280949575856709956,
  823350366879766814784,
  823350366879766814784,
  823350366879766814784,
  823350366879766814784,
  821045086820506542144,
  821045086820506542144,
  823350366879733268544,
  823350366879733268544,
  823350366879733268544,
  823350366879733268544,
  821045086820472995904,
  821045086820472995904,
  675812442949636874304,
  675812442812265021504,
  673507162890376601664,
  673507162753004748864,
  823350366742294323264,
  823350366604922470464,
  823350366879699714114,
  823350366879733252164,
  823350366879699714114,
  823350366879733252164,
  821045086820439441474,
  821045086820472979524,
  675812442949603319874,
  675812442812265005124,
  673507162890343047234,
  673507162753004732484,
  823350366742260768834,
  823350366604922454084,
  675812442812164366404,
  675812442812164366404,
  673507162752904093764,
  673507162752904093764,
  823350366604821815364,
  823350366604821815364,
  823350366879766290624,
  823350366879766290624,
  823350366879766290624,
  823350366879766290624,
  821045086820506017984,
  821045086820506017984,
  823350366879732744384,
  823350366879732744384,
  823350366879732744384,
  823350366879732744384,
  821045086820472471744,
  821045086820472471744,
  675812442949636350144,
  675812442812264497344,
  673507162890376077504,
  673507162753004224704,
  823350366742293799104,
  823350366604921946304,
  823350366879699189954,
  823350366879732728004,
  823350366879699189954,
  823350366879732728004,
  821045086820438917314,
  821045086820472455364,
  675812442949602795714,
  675812442812264480964,
  673507162890342523074,
  673507162753004208324,
  823350366742260244674,
  823350366604921929924,
  675812442812163842244,
  675812442812163842244,
  673507162752903569604,
  673507162752903569604,
  823350366604821291204,
  823350366604821291204,
  823350366877618807104,
  823350366875472371904,
  823350366877618807104,
  823350366875472371904,
  821045086818358534464,
  821045086816212099264,
  823350366877585260864,
  823350366875438825664,
  823350366877585260864,
  823350366875438825664,
  821045086818324988224,
  821045086816178553024,
  675812442947488866624,
  675812442807970578624,
  673507162888228593984,
  673507162748710305984,
  823350366740146315584,
  823350366600628027584,
  823350366877551706434,
  823350366875438809284,
  823350366877551706434,
  823350366875438809284,
  821045086818291433794,
  821045086816178536644,
  675812442947455312194,
  675812442807970562244,
  673507162888195039554,
  673507162748710289604,
  823350366740112761154,
  823350366600628011204,
  675812442810016358724,
  675812442807869923524,
  673507162750756086084,
  673507162748609650884,
  823350366602673807684,
  823350366600527372484,
  823350357944053293504,
  823350340218791411904,
  823350357944053293504,
  823350340218791411904,
  821045077884793020864,
  821045060159531139264,
  823350357944019739074,
  823350340218791395524,
  823350357944019739074,
  823350340218791395524,
  821045077884759466434,
  821045060159531122884,
  823350357806580785604,
  823350340218690756804,
  823350357806580785604,
  823350340218690756804,
  821045077747320512964,
  821045060159430484164,
  823350366879766814784,
  823350366879766814784,
  823350366879766814784,
  823350366879766814784,
  673507163027849093184,
  673507163027849093184,
  823350366879766814784,
  823350366879766814784,
  823350366879766806594,
  823350366879766806594,
  823350366879766806594,
  823350366879766806594,
  673507163027849084994,
  673507163027849084994,
  823350366879766806594,
  823350366879766806594,
  823350366879733252164,
  823350366879699714114,
  823350366879733252164,
  823350366879699714114,
  673507163027815530564,
  673507163027781992514,
  823350366879733252164,
  823350366879699714114,
  675812442949636849734,
  675812442674826068034,
  823350366879766290624,
  823350366879766290624,
  823350366879766290624,
  823350366879766290624]
def ccdq_t4_aaabaaab_cert_4 : List Nat := [673507163027848569024,
  673507163027848569024,
  823350366879766290624,
  823350366879766290624,
  823350366879766282434,
  823350366879766282434,
  823350366879766282434,
  823350366879766282434,
  673507163027848560834,
  673507163027848560834,
  823350366879766282434,
  823350366879766282434,
  823350366879732728004,
  823350366879699189954,
  823350366879732728004,
  823350366879699189954,
  673507163027815006404,
  673507163027781468354,
  823350366879732728004,
  823350366879699189954,
  675812442949636325574,
  675812442674825543874,
  823350366877618807104,
  823350366875472371904,
  823350366877618807104,
  823350366875472371904,
  673507163025701085504,
  673507163023554650304,
  823350366877618807104,
  823350366875472371904,
  823350366877618798914,
  823350366875472363714,
  823350366877618798914,
  823350366875472363714,
  673507163025701077314,
  673507163023554642114,
  823350366877618798914,
  823350366875472363714,
  823350366877585244484,
  823350366875405271234,
  823350366877585244484,
  823350366875405271234,
  673507163025667522884,
  673507163023487549634,
  823350366877585244484,
  823350366875405271234,
  675812442947488842054,
  675812442670531625154,
  821045078022265512384,
  821045060434375483584,
  821045078022265504194,
  821045060434375475394,
  821045078022231949764,
  821045060434308382914,
  823350357944053268934,
  823350340081352458434,
  823350357944053268934,
  823350340081352458434,
  673507154092135547334,
  673507136229434736834,
  823350357944053268934,
  823350340081352458434,
  823350366879766814784,
  823350366879766814784,
  823350366879733268544,
  823350366879733268544,
  823350366742294323264,
  823350366604922470464,
  821045086683034050624,
  821045086545662197824,
  675812442949636874304,
  675812442812265021504,
  673507162890376601664,
  673507162753004748864,
  823350366879699714114,
  823350366879733252164,
  823350366742260768834,
  823350366604922454084,
  821045086683000496194,
  821045086545662181444,
  675812442949603319874,
  675812442812265005124,
  673507162890343047234,
  673507162753004732484,
  823350366604821815364,
  823350366604821815364,
  821045086545561542724,
  821045086545561542724,
  675812442812164366404,
  675812442812164366404,
  673507162752904093764,
  673507162752904093764,
  11531498049961205824,
  11531498049961205824,
  9226217990700933184,
  9226217990700933184,
  11531498049927659584,
  11531498049927659584,
  9226217990667386944,
  9226217990667386944,
  11531497912488714304,
  11531497775116861504,
  11531498049894105154,
  11531498049927643204,
  9226217990633832514,
  9226217990667370564,
  11531497912455159874,
  11531497775116845124,
  11531497775016206404,
  11531497775016206404,
  164412590478073920,
  164412590478073920,
  164412590478073920,
  164412590478073920,
  164412453072674880,
  164412453072674880,
  164412315633729600,
  164412453005582400,
  164412178194776130,
  164412453005557830,
  164403796532535360,
  164403796532535360,
  164403659127136320,
  164403659127136320,
  164403659127136320,
  164403659127136320,
  164403521688191040,
  164403659060043840,
  164403521688191040,
  164403659060043840,
  164403384249237570,
  164403659060019270,
  164403384249237570,
  164403659060019270,
  164395000440037440,
  164403792238616640,
  164394863034638400,
  164403654833217600,
  164394863034638400,
  164403654833217600,
  164394725595693120,
  164403654766125120,
  164394725595693120,
  164403654766125120,
  164394588156739650,
  164403654766100550,
  164394588156739650,
  164403654766100550,
  164386204347015360,
  164403792237044160,
  164386066941616320,
  164403654831645120,
  164386066941616320,
  164403654831645120,
  164385929502671040,
  164403654764552640,
  164385929502671040,
  164403654764552640,
  164385792063717570,
  164403654764528070,
  164385792063717570,
  164403654764528070,
  2283003892736064,
  2283003892736064,
  2283003892736064,
  2283003892736064,
  2283003892736064,
  2283003892736064,
  2283003892727874,
  2283003892727874,
  162160790664388672,
  162160790664388672,
  162160790663864512,
  162160790663864512,
  162160790664388672,
  162160790664388672,
  162160790664388672,
  162160790664388672,
  9226217990700933184,
  9226217990700933184,
  9226217990667386944,
  9226217990667386944,
  11531498049961205824,
  11531498049961205824,
  11531498049927659584,
  11531498049927659584,
  9226217990700933184,
  9226217990700933184,
  11531498049961205824,
  11531498049961205824,
  9226217990700933184,
  9226217990700933184,
  9226217990700933184,
  9226217990700933184,
  9226217990633824324,
  9226217990633824324,
  164412590478073920,
  164412590478073920,
  164412590477549760,
  164412590477549760,
  164412590478073920,
  164412590478073920,
  164412590477549760,
  164412590477549760,
  164412590478073920,
  164412590478073920,
  164412590477549760,
  164412590477549760,
  164412590478073920,
  164412590478073920,
  164412590478065730,
  164412590478065730,
  164412590477549760,
  164412590477549760,
  164412590477541570,
  164412590477541570,
  164412590478073920,
  164412590478073920,
  164412590478065730,
  164412590478065730,
  164412590477549760,
  164412590477549760,
  164412590477541570,
  164412590477541570,
  164412590478073920,
  164412590478073920,
  164412590478073920,
  164412590478073920,
  164412590478073920,
  164412590478073920,
  164412590478073920,
  164412590478073920,
  164412590478073920,
  164412590478073920,
  164412590478073920,
  164412590478073920,
  164412590478073920,
  164412590478073920,
  164412590478065730,
  164412590478065730,
  164412590478073920,
  164412590478073920,
  164412590478065730,
  164412590478065730,
  164412590478073920,
  164412590478073920,
  164412590478065730,
  164412590478065730,
  811818900033884659776,
  811818900033884659776,
  811818900031737700416,
  811818900031737700416,
  811818900033884659776,
  811818900033884659776,
  811818900033884135616,
  811818900033884135616,
  664280976241227210816,
  664280976241227210816,
  664280976241226686656,
  664280976241226686656,
  811818900033884659776,
  811818900033884659776,
  811818900033884659776,
  811818900033884659776,
  664280976241227210816,
  664280976241227210816,
  823350366879766814784,
  823350366879766814784,
  675812443087109365824,
  675812443087109365824,
  823350366879766814784,
  823350366879766814784,
  823350366879766814784,
  823350366879766814784,
  821045086820506542144,
  821045086820506542144,
  673507163027849093184,
  673507163027849093184,
  823350366879766814784,
  823350366879766814784,
  823350366879766806594,
  823350366879766806594,
  821045086820506542144,
  821045086820506542144,
  821045086820506533954,
  821045086820506533954,
  673507163027849093184,
  673507163027849093184,
  673507163027849084994,
  673507163027849084994,
  821045086820506542144,
  821045086820506542144,
  821045086820472995904,
  821045086820472995904,
  823350366879766814784,
  823350366879766814784,
  823350366879733268544,
  823350366879733268544,
  673507163027849093184,
  673507163027849093184,
  673507163027815546944,
  673507163027815546944,
  675812443087109365824,
  675812443087109365824,
  675812443087075819584,
  675812443087075819584,
  821045086820506542144,
  821045086820506542144,
  823350366879766814784,
  823350366879766814784,
  673507163027849093184,
  673507163027849093184,
  675812443087109365824,
  675812443087109365824,
  821045086820506542144,
  821045086820506542144,
  821045086820506542144,
  821045086820506542144,
  821045086820439433284,
  821045086820439433284,
  821045086820506542144,
  821045086820506542144,
  821045086820506017984,
  821045086820506017984,
  673507163027849093184,
  673507163027849093184,
  673507163027848569024,
  673507163027848569024,
  675812443087109365824,
  675812443087109365824,
  675812443087108841664,
  675812443087108841664,
  675812443087109365824,
  675812443087109365824,
  675812443087108841664,
  675812443087108841664,
  823350366879766814784,
  823350366879766814784,
  823350366879766290624,
  823350366879766290624,
  823350366879766814784,
  823350366879766814784,
  823350366879766290624,
  823350366879766290624,
  673507163027849093184,
  673507163027849093184,
  673507163027848569024,
  673507163027848569024,
  823350366879766814784,
  823350366879766814784,
  823350366879766290624,
  823350366879766290624,
  823350366879766814784,
  823350366879766814784,
  823350366879766806594,
  823350366879766806594,
  823350366879766290624,
  823350366879766290624,
  823350366879766282434,
  823350366879766282434,
  823350366879766814784,
  823350366879766814784,
  823350366879766806594,
  823350366879766806594,
  823350366879766290624,
  823350366879766290624,
  823350366879766282434,
  823350366879766282434,
  673507163027849093184,
  673507163027849093184,
  673507163027849084994,
  673507163027849084994,
  673507163027848569024,
  673507163027848569024,
  673507163027848560834,
  673507163027848560834,
  823350366879766814784,
  823350366879766814784,
  823350366879766806594,
  823350366879766806594,
  823350366879766290624,
  823350366879766290624,
  823350366879766282434,
  823350366879766282434,
  673507163027849093184,
  673507163027849093184,
  673507163027815546944,
  673507163027815546944,
  673507163027848569024,
  673507163027848569024,
  673507163027815022784,
  673507163027815022784,
  675812443087109365824,
  675812443087109365824,
  675812443087075819584,
  675812443087075819584,
  675812443087108841664,
  675812443087108841664,
  675812443087075295424,
  675812443087075295424]
def ccdq_t4_aaabaaab_cert_5 : List Nat := [821045086820506542144,
  821045086820506542144,
  821045086820472995904,
  821045086820472995904,
  821045086820506017984,
  821045086820506017984,
  821045086820472471744,
  821045086820472471744,
  673507163027849093184,
  673507163027849093184,
  673507163027848569024,
  673507163027848569024,
  675812443087109365824,
  675812443087109365824,
  675812443087108841664,
  675812443087108841664,
  821045086820506542144,
  821045086820506542144,
  821045086820506017984,
  821045086820506017984,
  821045086820506542144,
  821045086820506542144,
  821045086820506017984,
  821045086820506017984,
  821045086820506542144,
  821045086820506542144,
  821045086820506017984,
  821045086820506017984,
  823350366879766814784,
  823350366879766814784,
  823350366879766290624,
  823350366879766290624,
  821045086820506542144,
  821045086820506542144,
  821045086820439433284,
  821045086820439433284,
  821045086820506017984,
  821045086820506017984,
  821045086820438909124,
  821045086820438909124,
  821045086820506542144,
  821045086820506542144,
  821045086820439433284,
  821045086820439433284,
  821045086820506017984,
  821045086820506017984,
  821045086820438909124,
  821045086820438909124,
  823350366879766814784,
  823350366879766814784,
  823350366879699705924,
  823350366879699705924,
  823350366879766290624,
  823350366879766290624,
  823350366879699181764,
  823350366879699181764,
  821045086820506542144,
  821045086820506542144,
  673507163027849093184,
  673507163027849093184,
  675812443087109365824,
  675812443087109365824,
  821045086820506542144,
  821045086820506542144,
  823350366879766814784,
  823350366879766814784,
  821045086820506542144,
  821045086820506542144,
  675812443087109365824,
  675812443087109365824,
  823350366879766814784,
  823350366879766814784,
  823350366879766814784,
  823350366879766814784,
  673507163027849093184,
  673507163027849093184,
  823350366879766814784,
  823350366879766814784,
  823350366879766814784,
  823350366879766814784,
  823350366879766814784,
  823350366879766814784,
  673507163027849093184,
  673507163027849093184,
  823350366879766814784,
  823350366879766814784,
  821045086820506542144,
  821045086820506542144,
  823350366879766814784,
  823350366879766814784,
  823350366879766806594,
  823350366879766806594,
  823350366879766814784,
  823350366879766814784,
  823350366879766806594,
  823350366879766806594,
  673507163027849093184,
  673507163027849093184,
  673507163027849084994,
  673507163027849084994,
  823350366879766814784,
  823350366879766814784,
  823350366879766806594,
  823350366879766806594,
  821045086820506542144,
  821045086820506542144,
  821045086820506533954,
  821045086820506533954,
  673507163027849093184,
  673507163027849093184,
  673507163027815546944,
  673507163027815546944,
  675812443087109365824,
  675812443087109365824,
  675812443087075819584,
  675812443087075819584,
  821045086820506542144,
  821045086820506542144,
  821045086820472995904,
  821045086820472995904,
  821045086820506542144,
  821045086820506542144,
  821045086820472995904,
  821045086820472995904,
  821045086820506542144,
  821045086820506542144,
  821045086820472995904,
  821045086820472995904,
  823350366879766814784,
  823350366879766814784,
  823350366879733268544,
  823350366879733268544,
  673507163027849093184,
  673507163027849093184,
  675812443087109365824,
  675812443087109365824,
  821045086820506542144,
  821045086820506542144,
  821045086820506542144,
  821045086820506542144,
  821045086820506542144,
  821045086820506542144,
  823350366879766814784,
  823350366879766814784,
  821045086820506542144,
  821045086820506542144,
  821045086820506542144,
  821045086820506542144,
  823350366879766814784,
  823350366879766814784,
  821045086820506542144,
  821045086820506542144,
  821045086820439433284,
  821045086820439433284,
  821045086820506542144,
  821045086820506542144,
  821045086820439433284,
  821045086820439433284,
  823350366879766814784,
  823350366879766814784,
  823350366879699705924,
  823350366879699705924,
  821045086820506542144,
  821045086820506542144,
  821045086818359582784,
  821045086818359582784,
  823350366879766814784,
  823350366879766814784,
  823350366877619855424,
  823350366877619855424,
  823350366879766814784,
  823350366879766814784,
  823350366877619855424,
  823350366877619855424,
  675812443087109365824,
  675812443087109365824,
  675812443084962406464,
  675812443084962406464,
  823350366879766814784,
  823350366879766814784,
  823350366879766806594,
  823350366879766806594,
  823350366877619855424,
  823350366877619855424,
  823350366877619847234,
  823350366877619847234,
  823350366879766814784,
  823350366879766814784,
  823350366879766806594,
  823350366879766806594,
  823350366877619855424,
  823350366877619855424,
  823350366877619847234,
  823350366877619847234,
  675812443087109365824,
  675812443087109365824,
  675812443087109357634,
  675812443087109357634,
  675812443084962406464,
  675812443084962406464,
  675812443084962398274,
  675812443084962398274,
  821045086820506542144,
  821045086820506542144,
  821045086820506017984,
  821045086820506017984,
  673507163027849093184,
  673507163027849093184,
  673507163027848569024,
  673507163027848569024,
  823350366879766814784,
  823350366879766814784,
  823350366879766290624,
  823350366879766290624,
  675812443087109365824,
  675812443087109365824,
  675812443087108841664,
  675812443087108841664,
  823350366879766814784,
  823350366879766814784,
  823350366879766290624,
  823350366879766290624,
  823350366879766814784,
  823350366879766814784,
  823350366879766290624,
  823350366879766290624,
  675812443087109365824,
  675812443087109365824,
  675812443087108841664,
  675812443087108841664,
  821045086820506542144,
  821045086820506542144,
  821045086820506017984,
  821045086820506017984,
  673507163027849093184,
  673507163027849093184,
  673507163027848569024,
  673507163027848569024,
  823350366879766814784,
  823350366879766814784,
  823350366879766290624,
  823350366879766290624,
  821045086820506542144,
  821045086820506542144,
  821045086820506533954,
  821045086820506533954,
  821045086820506017984,
  821045086820506017984,
  821045086820506009794,
  821045086820506009794,
  673507163027849093184,
  673507163027849093184,
  673507163027849084994,
  673507163027849084994,
  673507163027848569024,
  673507163027848569024,
  673507163027848560834,
  673507163027848560834,
  823350366879766814784,
  823350366879766814784,
  823350366879766806594,
  823350366879766806594,
  823350366879766290624,
  823350366879766290624,
  823350366879766282434,
  823350366879766282434,
  821045086820506542144,
  821045086820506542144,
  821045086820506542144,
  821045086820506542144,
  673507163027849093184,
  673507163027849093184,
  823350366879766814784,
  823350366879766814784,
  675812443087109365824,
  675812443087109365824,
  823350366879766814784,
  823350366879766814784,
  823350366879766814784,
  823350366879766814784,
  675812443087109365824,
  675812443087109365824,
  823350366879766814784,
  823350366879766814784,
  823350366879766814784,
  823350366879766814784,
  675812443087109365824,
  675812443087109365824,
  821045086820506542144,
  821045086820506542144,
  673507163027849093184,
  673507163027849093184,
  823350366879766814784,
  823350366879766814784,
  823350366879766814784,
  823350366879766814784,
  823350366879766806594,
  823350366879766806594,
  823350366879766814784,
  823350366879766814784,
  823350366879766806594,
  823350366879766806594,
  675812443087109365824,
  675812443087109365824,
  675812443087109357634,
  675812443087109357634,
  821045086820506542144,
  821045086820506542144,
  821045086820506533954,
  821045086820506533954,
  673507163027849093184,
  673507163027849093184,
  673507163027849084994,
  673507163027849084994,
  823350366879766814784,
  823350366879766814784,
  823350366879766806594,
  823350366879766806594,
  11531498049961205824,
  11531498049961205824,
  11531498049961197634,
  11531498049961197634,
  11531498047814246464,
  11531498047814246464,
  11531498047814238274,
  11531498047814238274,
  9226217990700933184,
  9226217990700933184,
  9226217990700924994,
  9226217990700924994,
  11531498049961205824,
  11531498049961205824,
  11531498049894096964,
  11531498049894096964,
  11531498047814246464,
  11531498047814246464,
  11531498047747137604,
  11531498047747137604,
  9226217990700933184,
  9226217990700933184,
  9226217990633824324,
  9226217990633824324,
  11531498049961205824,
  11531498049961205824,
  11531498049927659584,
  11531498049927659584,
  11531498047814246464,
  11531498047814246464,
  11531498047780700224,
  11531498047780700224,
  9226217990700933184,
  9226217990700933184,
  9226217990667386944,
  9226217990667386944,
  11531498049961205824,
  11531498049961205824,
  11531498047814246464,
  11531498047814246464,
  9226217990700933184,
  9226217990700933184,
  11531498049961205824,
  11531498049961205824,
  11531498047814246464,
  11531498047814246464,
  9226217990700933184,
  9226217990700933184,
  11531498049961205824,
  11531498049961205824,
  11531498047814246464,
  11531498047814246464,
  9226217990700933184,
  9226217990700933184,
  164412590478073920,
  164412590478073920,
  164412590478065730,
  164412590478065730,
  164412588331114560,
  164412588331114560,
  164412588331106370,
  164412588331106370,
  164412590478073920,
  164412590478073920,
  164412588331114560,
  164412588331114560,
  164412590478073920,
  164412590478073920,
  164412588331114560,
  164412588331114560,
  164412590478073920,
  164412590478073920,
  164412590478065730,
  164412590478065730,
  164412588331114560,
  164412588331114560,
  164412588331106370,
  164412588331106370,
  164412590478073920,
  164412590478073920,
  164412590478065730,
  164412590478065730]
def ccdq_t4_aaabaaab_cert_6 : List Nat := [164412590477549760,
  164412590477549760,
  164412590477541570,
  164412590477541570,
  164412590478073920,
  164412590478073920,
  164412590410965060,
  164412590410965060,
  164412588331114560,
  164412588331114560,
  164412588264005700,
  164412588264005700,
  164412590478073920,
  164412590478073920,
  164412590478065730,
  164412590478065730,
  164412588331114560,
  164412588331114560,
  164412588331106370,
  164412588331106370,
  164412590478073920,
  164412590478073920,
  164412590410965060,
  164412590410965060,
  164412590477549760,
  164412590477549760,
  164412590410440900,
  164412590410440900,
  164412590478073920,
  164412590478073920,
  164412590444527680,
  164412590444527680,
  164412588331114560,
  164412588331114560,
  164412588297568320,
  164412588297568320,
  164412590478073920,
  164412590478073920,
  164412590444527680,
  164412590444527680,
  164412590477549760,
  164412590477549760,
  164412590444003520,
  164412590444003520,
  164412590478073920,
  164412590478073920,
  164412590478065730,
  164412590478065730,
  164412586183106880,
  164412586183106880,
  164412586183098690,
  164412586183098690,
  164412590478073920,
  164412590478073920,
  164412586183106880,
  164412586183106880,
  164412590478073920,
  164412590478073920,
  164412586183106880,
  164412586183106880,
  164412590478073920,
  164412590478073920,
  164412590478065730,
  164412590478065730,
  164412586183106880,
  164412586183106880,
  164412586183098690,
  164412586183098690,
  164412590478073920,
  164412590478073920,
  164412590410965060,
  164412590410965060,
  164412586183106880,
  164412586183106880,
  164412586115998020,
  164412586115998020,
  164412590478073920,
  164412590478073920,
  164412590478065730,
  164412590478065730,
  164412586183106880,
  164412586183106880,
  164412586183098690,
  164412586183098690,
  164412590478073920,
  164412590478073920,
  164412590444527680,
  164412590444527680,
  164412586183106880,
  164412586183106880,
  164412586149560640,
  164412586149560640,
  164412590478073920,
  164412590478073920,
  164412590478065730,
  164412590478065730,
  164412590477549760,
  164412590477549760,
  164412590477541570,
  164412590477541570,
  164412590478073920,
  164412590478073920,
  164412590477549760,
  164412590477549760,
  164412590478073920,
  164412590478073920,
  164412590477549760,
  164412590477549760,
  164412590478073920,
  164412590478073920,
  164412590478065730,
  164412590478065730,
  164412590478073920,
  164412590478073920,
  164412590478073920,
  164412590478073920,
  164412590478065730,
  164412590478065730,
  164412590477549760,
  164412590477549760,
  164412590477541570,
  164412590477541570,
  164412590478073920,
  164412590478073920,
  164412590478065730,
  164412590478065730,
  164412590478073920,
  164412590478073920,
  164412590478065730,
  164412590478065730,
  164412590478073920,
  164412590478073920,
  164412590410965060,
  164412590410965060,
  164412590477549760,
  164412590477549760,
  164412590410440900,
  164412590410440900,
  164412590478073920,
  164412590478073920,
  164412590478065730,
  164412590478065730,
  164412590477549760,
  164412590477549760,
  164412590477541570,
  164412590477541570,
  164412590478073920,
  164412590478073920,
  164412590410965060,
  164412590410965060,
  164412590478073920,
  164412590478073920,
  164412590410965060,
  164412590410965060,
  164412590478073920,
  164412590478073920,
  164412590444527680,
  164412590444527680,
  164412590477549760,
  164412590477549760,
  164412590444003520,
  164412590444003520,
  164412590478073920,
  164412590478073920,
  164412590444527680,
  164412590444527680,
  164412590478073920,
  164412590478073920,
  164412590444527680,
  164412590444527680,
  164412590478073920,
  164412590478073920,
  164412590478065730,
  164412590478065730,
  164412590477549760,
  164412590477549760,
  164412590477541570,
  164412590477541570,
  164412590478073920,
  164412590478073920,
  164412590477549760,
  164412590477549760,
  164412590478073920,
  164412590478073920,
  164412590478065730,
  164412590478065730,
  164412590477549760,
  164412590477549760,
  164412590477541570,
  164412590477541570,
  164412590478073920,
  164412590478073920,
  164412590410965060,
  164412590410965060,
  164412590477549760,
  164412590477549760,
  164412590410440900,
  164412590410440900,
  164412590478073920,
  164412590478073920,
  164412590444527680,
  164412590444527680,
  164412590477549760,
  164412590477549760,
  164412590444003520,
  164412590444003520,
  811818900033884659776,
  811818900033884659776,
  811818900031737700416,
  811818900031737700416,
  811818900033884659776,
  811818900033884659776,
  811818900033817550916,
  811818900033817550916,
  811818900031737700416,
  811818900031737700416,
  811818900031670591556,
  811818900031670591556,
  664280976241227210816,
  664280976241227210816,
  664280976241193664576,
  664280976241193664576,
  664280976241226686656,
  664280976241226686656,
  664280976241193140416,
  664280976241193140416,
  664280976241227210816,
  664280976241227210816,
  664280976241226686656,
  664280976241226686656,
  811818900033884659776,
  811818900033884659776,
  811818900033884135616,
  811818900033884135616,
  811818900033884659776,
  811818900033884659776,
  811818900033817550916,
  811818900033817550916,
  811818900033884135616,
  811818900033884135616,
  811818900033817026756,
  811818900033817026756,
  664280976241227210816,
  664280976241227210816,
  664280976241193664576,
  664280976241193664576,
  664280976241227210816,
  664280976241227210816,
  811818900033884659776,
  811818900033884659776,
  811818900033884659776,
  811818900033884659776,
  811818900033884659776,
  811818900033884659776,
  811818900033817550916,
  811818900033817550916,
  811818900033884659776,
  811818900033884659776,
  811818900033817550916,
  811818900033817550916,
  823350366879766814784,
  823350366879766814784,
  823350366879766806594,
  823350366879766806594,
  823350366877619855424,
  823350366877619855424,
  823350366877619847234,
  823350366877619847234,
  675812443087109365824,
  675812443087109365824,
  675812443087109357634,
  675812443087109357634,
  675812443084962406464,
  675812443084962406464,
  675812443084962398274,
  675812443084962398274,
  821045086820506542144,
  821045086820506542144,
  821045086820506533954,
  821045086820506533954,
  673507163027849093184,
  673507163027849093184,
  673507163027849084994,
  673507163027849084994,
  823350366879766814784,
  823350366879766814784,
  823350366879699705924,
  823350366879699705924,
  823350366877619855424,
  823350366877619855424,
  823350366877552746564,
  823350366877552746564,
  675812443087109365824,
  675812443087109365824,
  675812443087042256964,
  675812443087042256964,
  675812443084962406464,
  675812443084962406464,
  675812443084895297604,
  675812443084895297604,
  821045086820506542144,
  821045086820506542144,
  821045086820439433284,
  821045086820439433284,
  673507163027849093184,
  673507163027849093184,
  673507163027781984324,
  673507163027781984324,
  823350366879766814784,
  823350366879766814784,
  823350366879733268544,
  823350366879733268544,
  823350366877619855424,
  823350366877619855424,
  823350366877586309184,
  823350366877586309184,
  675812443087109365824,
  675812443087109365824,
  675812443087075819584,
  675812443087075819584,
  675812443084962406464,
  675812443084962406464,
  675812443084928860224,
  675812443084928860224,
  821045086820506542144,
  821045086820506542144,
  821045086820472995904,
  821045086820472995904,
  673507163027849093184,
  673507163027849093184,
  673507163027815546944,
  673507163027815546944,
  823350366879766814784,
  823350366879766814784,
  823350366877619855424,
  823350366877619855424,
  821045086820506542144,
  821045086820506542144,
  823350366879766814784,
  823350366879766814784,
  823350366877619855424,
  823350366877619855424,
  821045086820506542144,
  821045086820506542144,
  823350366879766814784,
  823350366879766814784,
  823350366877619855424,
  823350366877619855424,
  821045086820506542144,
  821045086820506542144,
  675812443087109365824,
  675812443087109365824,
  675812443087109357634,
  675812443087109357634,
  675812443084962406464,
  675812443084962406464,
  675812443084962398274,
  675812443084962398274,
  675812443087109365824,
  675812443087109365824,
  675812443084962406464,
  675812443084962406464,
  823350366879766814784,
  823350366879766814784,
  823350366877619855424,
  823350366877619855424,
  673507163027849093184,
  673507163027849093184,
  673507163025702133824,
  673507163025702133824,
  823350366879766814784,
  823350366879766814784,
  823350366879766806594,
  823350366879766806594,
  823350366877619855424,
  823350366877619855424,
  823350366877619847234,
  823350366877619847234,
  823350366879766814784,
  823350366879766814784,
  823350366879766806594,
  823350366879766806594,
  823350366877619855424,
  823350366877619855424,
  823350366877619847234,
  823350366877619847234,
  823350366879766814784,
  823350366879766814784,
  823350366879766806594,
  823350366879766806594,
  823350366879766290624,
  823350366879766290624,
  823350366879766282434,
  823350366879766282434,
  673507163027849093184,
  673507163027849093184,
  673507163027849084994,
  673507163027849084994,
  673507163027848569024,
  673507163027848569024]
def ccdq_t4_aaabaaab_cert_7 : List Nat := [673507163027848560834,
  673507163027848560834,
  823350366879766814784,
  823350366879766814784,
  823350366879699705924,
  823350366879699705924,
  823350366877619855424,
  823350366877619855424,
  823350366877552746564,
  823350366877552746564,
  823350366879766814784,
  823350366879766814784,
  823350366879699705924,
  823350366879699705924,
  823350366877619855424,
  823350366877619855424,
  823350366877552746564,
  823350366877552746564,
  823350366879766814784,
  823350366879766814784,
  823350366879766806594,
  823350366879766806594,
  823350366877619855424,
  823350366877619855424,
  823350366877619847234,
  823350366877619847234,
  673507163027849093184,
  673507163027849093184,
  673507163027849084994,
  673507163027849084994,
  673507163025702133824,
  673507163025702133824,
  673507163025702125634,
  673507163025702125634,
  823350366879766814784,
  823350366879766814784,
  823350366879699705924,
  823350366879699705924,
  823350366879766290624,
  823350366879766290624,
  823350366879699181764,
  823350366879699181764,
  673507163027849093184,
  673507163027849093184,
  673507163027781984324,
  673507163027781984324,
  673507163027848569024,
  673507163027848569024,
  673507163027781460164,
  673507163027781460164,
  823350366879766814784,
  823350366879766814784,
  823350366879733268544,
  823350366879733268544,
  823350366877619855424,
  823350366877619855424,
  823350366877586309184,
  823350366877586309184,
  823350366879766814784,
  823350366879766814784,
  823350366879733268544,
  823350366879733268544,
  823350366877619855424,
  823350366877619855424,
  823350366877586309184,
  823350366877586309184,
  823350366879766814784,
  823350366879766814784,
  823350366879733268544,
  823350366879733268544,
  823350366879766290624,
  823350366879766290624,
  823350366879732744384,
  823350366879732744384,
  673507163027849093184,
  673507163027849093184,
  673507163027815546944,
  673507163027815546944,
  673507163027848569024,
  673507163027848569024,
  673507163027815022784,
  673507163027815022784,
  675812443087109365824,
  675812443087109365824,
  675812443087109357634,
  675812443087109357634,
  675812443084962406464,
  675812443084962406464,
  675812443084962398274,
  675812443084962398274,
  823350366879766814784,
  823350366879766814784,
  823350366879766806594,
  823350366879766806594,
  821045086818359582784,
  821045086818359582784,
  821045086818359574594,
  821045086818359574594,
  673507163027849093184,
  673507163027849093184,
  673507163027815546944,
  673507163027815546944,
  673507163025702133824,
  673507163025702133824,
  673507163025668587584,
  673507163025668587584,
  675812443087109365824,
  675812443087109365824,
  675812443087075819584,
  675812443087075819584,
  675812443084962406464,
  675812443084962406464,
  675812443084928860224,
  675812443084928860224,
  673507163027849093184,
  673507163027849093184,
  673507163027849084994,
  673507163027849084994,
  673507163027848569024,
  673507163027848569024,
  673507163027848560834,
  673507163027848560834,
  675812443087109365824,
  675812443087109365824,
  675812443087042256964,
  675812443087042256964,
  675812443084962406464,
  675812443084962406464,
  675812443084895297604,
  675812443084895297604,
  823350366879766814784,
  823350366879766814784,
  823350366879699705924,
  823350366879699705924,
  821045086818359582784,
  821045086818359582784,
  821045086818292473924,
  821045086818292473924,
  673507163027849093184,
  673507163027849093184,
  673507163027781984324,
  673507163027781984324,
  673507163027848569024,
  673507163027848569024,
  673507163027781460164,
  673507163027781460164,
  675812443087109365824,
  675812443087109365824,
  675812443087075819584,
  675812443087075819584,
  675812443084962406464,
  675812443084962406464,
  675812443084928860224,
  675812443084928860224,
  823350366879766814784,
  823350366879766814784,
  823350366879733268544,
  823350366879733268544,
  821045086818359582784,
  821045086818359582784,
  821045086818326036544,
  821045086818326036544,
  673507163027849093184,
  673507163027849093184,
  673507163025702133824,
  673507163025702133824,
  675812443087109365824,
  675812443087109365824,
  675812443084962406464,
  675812443084962406464,
  821045086820506542144,
  821045086820506542144,
  821045086818359582784,
  821045086818359582784,
  823350366879766814784,
  823350366879766814784,
  823350366877619855424,
  823350366877619855424,
  673507163027849093184,
  673507163027849093184,
  673507163027815546944,
  673507163027815546944,
  673507163027848569024,
  673507163027848569024,
  673507163027815022784,
  673507163027815022784,
  821045086820506542144,
  821045086820506542144,
  821045086820506017984,
  821045086820506017984,
  823350366879766814784,
  823350366879766814784,
  823350366877619855424,
  823350366877619855424,
  823350366879766814784,
  823350366879766814784,
  823350366877619855424,
  823350366877619855424,
  821045086820506542144,
  821045086820506542144,
  821045086818359582784,
  821045086818359582784,
  821045086820506542144,
  821045086820506542144,
  821045086820439433284,
  821045086820439433284,
  821045086818359582784,
  821045086818359582784,
  821045086818292473924,
  821045086818292473924,
  823350366879766814784,
  823350366879766814784,
  823350366879699705924,
  823350366879699705924,
  823350366877619855424,
  823350366877619855424,
  823350366877552746564,
  823350366877552746564,
  821045086820506542144,
  821045086820506542144,
  821045086820506017984,
  821045086820506017984,
  821045086820506542144,
  821045086820506542144,
  821045086820506017984,
  821045086820506017984,
  821045086820506542144,
  821045086820506542144,
  821045086820439433284,
  821045086820439433284,
  821045086820506017984,
  821045086820506017984,
  821045086820438909124,
  821045086820438909124,
  823350366879766814784,
  823350366879766814784,
  823350366877619855424,
  823350366877619855424,
  823350366879766814784,
  823350366879766814784,
  823350366877619855424,
  823350366877619855424,
  821045086820506542144,
  821045086820506542144,
  821045086818359582784,
  821045086818359582784,
  821045086820506542144,
  821045086820506542144,
  821045086820506017984,
  821045086820506017984,
  821045086820506542144,
  821045086820506542144,
  821045086820506017984,
  821045086820506017984,
  823350366879766814784,
  823350366879766814784,
  823350366877619855424,
  823350366877619855424,
  823350366879766814784,
  823350366879766814784,
  823350366877619855424,
  823350366877619855424,
  821045086820506542144,
  821045086820506542144,
  821045086818359582784,
  821045086818359582784,
  821045086820506542144,
  821045086820506542144,
  821045086820506017984,
  821045086820506017984,
  821045086820506542144,
  821045086820506542144,
  821045086820506017984,
  821045086820506017984,
  675812443087109365824,
  675812443087109365824,
  675812443087109357634,
  675812443087109357634,
  675812443087109365824,
  675812443087109365824,
  823350366879766814784,
  823350366879766814784,
  673507163027849093184,
  673507163027849093184,
  823350366879766814784,
  823350366879766814784,
  823350366879766806594,
  823350366879766806594,
  821045086820506542144,
  821045086820506542144,
  821045086820506533954,
  821045086820506533954,
  823350366879766814784,
  823350366879766814784,
  823350366879699705924,
  823350366879699705924,
  821045086820506542144,
  821045086820506542144,
  821045086820439433284,
  821045086820439433284,
  823350366879766814784,
  823350366879766814784,
  823350366879766806594,
  823350366879766806594,
  673507163027849093184,
  673507163027849093184,
  673507163027849084994,
  673507163027849084994,
  823350366879766814784,
  823350366879766814784,
  823350366879733268544,
  823350366879733268544,
  821045086820506542144,
  821045086820506542144,
  821045086820472995904,
  821045086820472995904,
  675812443087109365824,
  675812443087109365824,
  675812443087109357634,
  675812443087109357634,
  821045086820506542144,
  821045086820506542144,
  821045086820506533954,
  821045086820506533954,
  673507163027849093184,
  673507163027849093184,
  673507163027815546944,
  673507163027815546944,
  675812443087109365824,
  675812443087109365824,
  675812443087075819584,
  675812443087075819584,
  675812443087109365824,
  675812443087109365824,
  675812443087042256964,
  675812443087042256964,
  821045086820506542144,
  821045086820506542144,
  821045086820439433284,
  821045086820439433284,
  675812443087109365824,
  675812443087109365824,
  675812443087075819584,
  675812443087075819584,
  821045086820506542144,
  821045086820506542144,
  821045086820472995904,
  821045086820472995904,
  673507163027849093184,
  673507163027849093184,
  675812443087109365824,
  675812443087109365824,
  821045086820506542144,
  821045086820506542144,
  823350366879766814784,
  823350366879766814784,
  823350366879766814784,
  823350366879766814784,
  823350366879766814784,
  823350366879766814784,
  821045086820506542144,
  821045086820506542144,
  821045086820506542144,
  821045086820506542144,
  821045086820439433284,
  821045086820439433284,
  823350366879766814784,
  823350366879766814784,
  823350366879699705924,
  823350366879699705924,
  823350366879766814784,
  823350366879766814784,
  823350366879766814784,
  823350366879766814784,
  821045086820506542144,
  821045086820506542144,
  823350366879766814784,
  823350366879766814784,
  823350366879766814784,
  823350366879766814784,
  821045086820506542144,
  821045086820506542144,
  823350366879766814784,
  823350366879766814784,
  823350366879766806594,
  823350366879766806594,
  673507163027849093184,
  673507163027849093184,
  673507163027849084994,
  673507163027849084994,
  823350366879766814784,
  823350366879766814784,
  823350366879699705924,
  823350366879699705924,
  673507163027849093184,
  673507163027849093184,
  673507163027781984324,
  673507163027781984324,
  823350366879766814784,
  823350366879766814784]
def ccdq_t4_aaabaaab_cert_8 : List Nat := [823350366879733268544,
  823350366879733268544,
  673507163027849093184,
  673507163027849093184,
  673507163027815546944,
  673507163027815546944,
  673507163027849093184,
  673507163027849093184,
  673507163027849084994,
  673507163027849084994,
  673507163027849093184,
  673507163027849093184,
  673507163027781984324,
  673507163027781984324,
  673507163027849093184,
  673507163027849093184,
  673507163027815546944,
  673507163027815546944,
  821045086820506542144,
  821045086820506542144,
  821045086820506542144,
  821045086820506542144,
  821045086820506542144,
  821045086820506542144,
  821045086820506542144,
  821045086820506542144,
  821045086820439433284,
  821045086820439433284,
  821045086820506542144,
  821045086820506542144,
  821045086820506542144,
  821045086820506542144,
  821045086820506542144,
  821045086820506542144,
  821045086820506542144,
  821045086820506542144]

/-- Check ccdq_t4_aaabaaab. C83 -/
theorem ccdq_t4_aaabaaab : isZeroSpin kinds [aᵥ, bᵥ, cᵥ, dᵥ, iₒ, jₒ, kₒ, lₒ] 4 [false, false, false, true, false, false, false, true]
    (Prog.outs [4, 5, 6, 7, 0, 1, 2, 3] (Prog.thin split_ccdq_t4 (Prog.ideal (ccdq_t4eqns_0))))
    (Prog.scale (-1) (Prog.ideal (ccdq_t4_aaabaaab)))
    (ccdq_t4_aaabaaab_cert_0 ++ (ccdq_t4_aaabaaab_cert_1 ++ (ccdq_t4_aaabaaab_cert_2 ++ (ccdq_t4_aaabaaab_cert_3 ++ (ccdq_t4_aaabaaab_cert_4 ++ (ccdq_t4_aaabaaab_cert_5 ++ (ccdq_t4_aaabaaab_cert_6 ++ (ccdq_t4_aaabaaab_cert_7 ++ (ccdq_t4_aaabaaab_cert_8))))))))) = true := by decide +kernel

end Verif.Cert
