import Verif.Ein.Spin
import Verif.Cert.Thin
import Verif.Gen.SiCcdqT4_2

/-! Written by `/verif/tools/gen.py`. Checks of einsum programs. -/

set_option maxRecDepth 100000

namespace Verif.Cert

open Verif.Ein Verif.Ein.N


open Verif.Gen

def ccdq_t4_aabbaabb_cert_0 : List Nat := [2283003892736064,
  2283003892736064,
  2283003892727874,
  2283003892727874,
  2283003859173444,
  2283003825635394,
  2282866420219974,
  2282591609438274,
  823350366879766814784,
  823350366879766814784,
  821045086820506542144,
  821045086820506542144,
  673507163027849093184,
  673507163027849093184,
  823350366879766806594,
  823350366879766806594,
  821045086820506533954,
  821045086820506533954,
  673507163027849084994,
  673507163027849084994,
  823350366879733252164,
  823350366879699714114,
  675812443087075803204,
  675812443087042265154,
  823350366879733252164,
  823350366879699714114,
  823350366742294298694,
  823350366467483516994,
  675812442949636849734,
  675812442674826068034,
  823350366742294298694,
  823350366467483516994,
  162160790664388672,
  162160790664388672,
  162160790663864512,
  162160790663864512,
  162160788516380992,
  162160786369945792,
  162151992423358912,
  162134404533330112,
  823350366879766814784,
  823350366879766814784,
  675812443087109365824,
  675812443087109365824,
  673507163027849093184,
  673507163027849093184,
  823350366879766290624,
  823350366879766290624,
  675812443087108841664,
  675812443087108841664,
  673507163027848569024,
  673507163027848569024,
  823350366877618807104,
  823350366875472371904,
  821045086818358534464,
  821045086816212099264,
  823350366877618807104,
  823350366875472371904,
  823350358081525785024,
  823350340493635756224,
  821045078022265512384,
  821045060434375483584,
  823350358081525785024,
  823350340493635756224,
  823350366879733268544,
  823350366879733268544,
  675812443087075819584,
  675812443087075819584,
  823350366742294323264,
  823350366604922470464,
  675812442949636874304,
  675812442812265021504,
  823350366879699714114,
  823350366879733252164,
  675812443087042265154,
  675812443087075803204,
  823350366742260768834,
  823350366604922454084,
  675812442949603319874,
  675812442812265005124,
  823350366877619855424,
  823350366877619855424,
  821045086818326036544,
  821045086818326036544,
  673507163025668587584,
  673507163025668587584,
  821045086680887091264,
  821045086543515238464,
  673507162888229642304,
  673507162750857789504,
  823350366877619847234,
  823350366877619847234,
  823350366877586292804,
  823350366877552754754,
  675812443084928843844,
  675812443084895305794,
  823350366740147339334,
  823350366465336557634,
  675812442947489890374,
  675812442672679108674,
  821045086818292482114,
  821045086818326020164,
  673507163025635033154,
  673507163025668571204,
  821045086680853536834,
  821045086543515222084,
  673507162888196087874,
  673507162750857773124,
  823350366877552746564,
  823350366877552746564,
  675812443084895297604,
  675812443084895297604,
  823350366740113793094,
  823350366465336549444,
  675812442947456344134,
  675812442672679100484,
  823350366602674856004,
  823350366602674856004,
  823350366602674847814,
  823350366465269456964,
  823350358081527357504,
  823350349289728778304,
  821045078022233538624,
  821045069230434959424,
  673507154229576089664,
  673507145437777510464,
  821045077884794593344,
  821045068955624161344,
  673507154092137144384,
  673507145162966712384,
  823350358081527349314,
  823350349289728770114,
  823350358081493794884,
  823350349289661677634,
  675812434288836345924,
  675812425497004228674,
  823350357944054841414,
  823350348877445480514,
  675812434151397392454,
  675812425084788031554,
  821045078022199984194,
  821045069230434943044,
  673507154229542535234,
  673507145437777494084,
  821045077884761038914,
  821045068955624144964,
  673507154092103589954,
  673507145162966696004,
  823350358081460248644,
  823350349289661669444,
  675812434288802799684,
  675812425497004220484,
  823350357944021295174,
  823350348877445472324,
  675812434151363846214,
  675812425084788023364,
  823350357806582358084,
  823350349014783778884,
  823350357806582349894,
  823350348877378379844,
  821045086816212099264,
  821045086818358534464,
  821045086816178553024,
  821045086818324988224,
  673507163023521104064,
  673507163025667539264,
  821045086678739607744,
  821045086543514190144,
  673507162886082158784,
  673507162750856741184,
  821045086816212091074,
  821045086818358526274,
  823350366875438809284,
  823350366877551706434,
  675812443082781360324,
  675812443084894257474,
  823350366737999855814,
  823350366465335509314,
  675812442945342406854,
  675812442672678060354,
  821045086816144998594,
  821045086818324971844,
  673507163023487549634,
  673507163025667522884,
  821045086678706053314,
  821045086543514173764,
  673507162886048604354,
  673507162750856724804,
  823350366875405263044,
  823350366877551698244,
  675812443082747814084,
  675812443084894249284,
  823350366737966309574,
  823350366465335501124,
  675812442945308860614,
  675812442672678052164,
  821045086541267099844,
  821045086543413535044,
  821045086541267091654,
  821045086406008136004,
  821045078020119601344,
  821045069230467457344,
  821045078020086055104,
  821045069230433911104,
  673507154227428606144,
  673507145437776462144,
  821045077882647109824,
  821045068955623113024,
  673507154089989660864,
  673507145162965664064,
  821045078020119593154,
  821045069230467449154,
  823350358079346311364,
  823350349289660629314,
  675812434286688862404,
  675812425497003180354,
  823350357941907357894,
  823350348877444432194,
  675812434149249908934,
  675812425084786983234,
  821045078020052500674,
  821045069230433894724,
  673507154227395051714,
  673507145437776445764,
  821045077882613555394,
  821045068955623096644,
  673507154089956106434,
  673507145162965647684,
  823350358079312765124,
  823350349289660621124,
  675812434286655316164,
  675812425497003172164,
  823350357941873811654,
  823350348877444424004,
  675812434149216362694,
  675812425084786975044,
  821045077745174601924,
  821045068955522457924,
  821045077745174593734,
  821045068818117058884,
  821045069223993016644,
  821045069223959478594,
  673507145431335567684,
  673507145431302029634,
  821045069086554063174,
  821045068811743281474,
  673507145293896614214,
  673507145019085832514,
  821045069223959470404,
  821045069223959470404,
  673507145431302021444,
  673507145431302021444,
  821045069086520516934,
  821045068811743273284,
  673507145293863067974,
  673507145019085824324,
  11531498049927659584,
  11531498049927659584,
  11531497912488714304,
  11531497775116861504,
  11531498049894105154,
  11531498049927643204,
  11531497912455159874,
  11531497775116845124,
  11531498047814246464,
  11531498047814246464,
  9226217988520427584,
  9226217988520427584,
  9226217851081482304,
  9226217713709629504,
  11531498047814238274,
  11531498047814238274,
  11531498047780683844,
  11531498047747145794,
  11531497910341730374,
  11531497635530948674,
  9226217988486873154,
  9226217988520411204,
  9226217851047927874,
  9226217713709613124,
  11531498047747137604,
  11531498047747137604,
  11531497910308184134,
  11531497635530940484,
  11531497772869247044,
  11531497772869247044,
  11531497772869238854,
  11531497635463848004,
  11531489251721748544,
  11531480459923169344,
  9226209192427929664,
  9226200400629350464,
  9226209054988984384,
  9226200125818552384,
  11531489251721740354,
  11531480459923161154,
  11531489251688185924,
  11531480459856068674,
  11531489114249232454,
  11531480047639871554,
  9226209192394375234,
  9226200400629334084,
  9226209054955429954,
  9226200125818536004,
  11531489251654639684,
  11531480459856060484,
  11531489114215686214,
  11531480047639863364,
  11531488976776749124,
  11531480184978169924,
  11531488976776740934,
  11531480047572770884,
  9226217986406490304,
  9226217988552925504,
  9226217986372944064,
  9226217988519379264,
  9226217848933998784,
  9226217713708581184,
  9226217986406482114,
  9226217988552917314,
  11531498045633200324,
  11531498047746097474,
  11531497908194246854,
  11531497635529900354,
  9226217986339389634,
  9226217988519362884,
  9226217848900444354,
  9226217713708564804,
  11531498045599654084,
  11531498047746089284,
  11531497908160700614,
  11531497635529892164,
  9226217711461490884,
  9226217713607926084,
  9226217711461482694,
  9226217576202527044,
  9226209190313992384,
  9226200400661848384,
  9226209190280446144,
  9226200400628302144,
  9226209052841500864,
  9226200125817504064,
  9226209190313984194,
  9226200400661840194,
  11531489249540702404,
  11531480459855020354,
  11531489112101748934,
  11531480047638823234,
  9226209190246891714,
  9226200400628285764,
  9226209052807946434,
  9226200125817487684,
  11531489249507156164,
  11531480459855012164,
  11531489112068202694,
  11531480047638815044,
  9226208915368992964,
  9226200125716848964,
  9226208915368984774,
  9226199988311449924,
  9226200394187407684,
  9226200394153869634,
  9226200256748454214,
  9226199981937672514,
  9226200394153861444,
  9226200394153861444,
  9226200256714907974,
  9226199981937664324,
  823350366879766814784,
  823350366879766814784,
  823350366879766814784,
  823350366879766814784,
  823350366742361415744,
  823350366742361415744,
  823350366742361415744,
  823350366742361415744,
  675812442812265021504,
  675812442949636874304,
  823350366879766806594,
  823350366879766806594,
  823350366879766806594,
  823350366879766806594,
  823350366742361407554,
  823350366742361407554,
  823350366742361407554,
  823350366742361407554,
  675812442674826068034,
  675812442949636849734,
  675812434293163827264,
  675812434293163827264,
  823350358085821276224,
  823350358085821276224,
  675812434155758428224,
  675812434155758428224,
  823350357948415877184,
  823350357948415877184,
  675812434018319482944,
  675812434155691335744,
  675812434293163819074,
  675812434293163819074]
def ccdq_t4_aabbaabb_cert_1 : List Nat := [823350358085821268034,
  823350358085821268034,
  675812434155758420034,
  675812434155758420034,
  823350357948415868994,
  823350357948415868994,
  675812433880880529474,
  675812434155691311174,
  673507163025702133824,
  673507163025702133824,
  823350366877619855424,
  823350366877619855424,
  673507162888296734784,
  673507162888296734784,
  823350366740214456384,
  823350366740214456384,
  673507163025702125634,
  673507163025702125634,
  823350366877619847234,
  823350366877619847234,
  673507162888296726594,
  673507162888296726594,
  823350366740214448194,
  823350366740214448194,
  821045086818326020164,
  821045086818292482114,
  823350366877586292804,
  823350366877552754754,
  821045086680887066694,
  821045086406076284994,
  823350366740147339334,
  823350366465336557634,
  675812442810118045764,
  675812442947456360514,
  675812442810084491334,
  675812442672645562434,
  675812442672679100484,
  675812442947456344134,
  675812442672645546054,
  675812442672645546054,
  673507154229609635904,
  673507145437811056704,
  823350358081527357504,
  823350349289728778304,
  673507154092204236864,
  673507145300405657664,
  823350357944121958464,
  823350349152323379264,
  673507154229609627714,
  673507145437811048514,
  823350358081527349314,
  823350349289728770114,
  673507154092204228674,
  673507145300405649474,
  823350357944121950274,
  823350349152323371074,
  821045078022233522244,
  821045069230401404994,
  823350358081493794884,
  823350349289661677634,
  821045077884794568774,
  821045068818185207874,
  823350357944054841414,
  823350348877445480514,
  675812434014025547844,
  675812425359565283394,
  675812434013991993414,
  675812425084754485314,
  675812433876586602564,
  675812425359565267014,
  675812433876553048134,
  675812425084754468934,
  821045069230468505664,
  821045078022267084864,
  821045069093063106624,
  821045077884861685824,
  673507145162966712384,
  673507154092137144384,
  675812425222226985024,
  675812434151397417024,
  821045069230468497474,
  821045078022267076674,
  821045069093063098434,
  821045077884861677634,
  673507145162966696004,
  673507154092103589954,
  823350349014884417604,
  823350357944021311554,
  673507145162933141574,
  673507153817292791874,
  823350349014850863174,
  823350357669210513474,
  673507145025527758914,
  673507154092137119814,
  675812425084788031554,
  675812434151397392454,
  673507145025527750724,
  673507154092103573574,
  823350348877445472324,
  823350357944021295174,
  673507145025494196294,
  673507153817292775494,
  823350348877411917894,
  823350357669210497094,
  821045069228321546304,
  821045069228321546304,
  821045069090916147264,
  821045069090916147264,
  673507145160819753024,
  673507145298191605824,
  675812425220080025664,
  675812425357451878464,
  821045069228321538114,
  821045069228321538114,
  821045069090916139074,
  821045069090916139074,
  673507145160819736644,
  673507145298158051394,
  823350349012737458244,
  823350349150075772994,
  673507145160786182214,
  673507145023347253314,
  823350349012703903814,
  823350348875264974914,
  673507145023380799554,
  673507145298191581254,
  675812425082641072194,
  675812425357451853894,
  673507145023380791364,
  673507145298158035014,
  823350348875298512964,
  823350349150075756614,
  673507145023347236934,
  673507145023347236934,
  823350348875264958534,
  823350348875264958534,
  673507163023554650304,
  673507163025701085504,
  823350366875472371904,
  823350366877618807104,
  673507162886149251264,
  673507162888295686464,
  823350366738066972864,
  823350366740213408064,
  673507163023554642114,
  673507163025701077314,
  823350366875472363714,
  823350366877618798914,
  673507162886149243074,
  673507162888295678274,
  823350366738066964674,
  823350366740213399874,
  821045086816178536644,
  821045086818291433794,
  823350366875438809284,
  823350366877551706434,
  821045086678739583174,
  821045086406075236674,
  823350366737999855814,
  823350366465335509314,
  675812442807970562244,
  675812442947455312194,
  675812442807937007814,
  675812442672644514114,
  675812442670531616964,
  675812442947455295814,
  675812442670498062534,
  675812442672644497734,
  673507154227462152384,
  673507145437810008384,
  823350358079379873984,
  823350349289727729984,
  673507154090056753344,
  673507145300404609344,
  823350357941974474944,
  823350349152322330944,
  673507154227462144194,
  673507145437810000194,
  823350358079379865794,
  823350349289727721794,
  673507154090056745154,
  673507145300404601154,
  823350357941974466754,
  823350349152322322754,
  821045078020086038724,
  821045069230400356674,
  823350358079346311364,
  823350349289660629314,
  821045077882647085254,
  821045068818184159554,
  823350357941907357894,
  823350348877444432194,
  675812434011878064324,
  675812425359564235074,
  675812434011844509894,
  675812425084753436994,
  675812433874439119044,
  675812425359564218694,
  675812433874405564614,
  675812425084753420614,
  821045069223993016644,
  821045069223959478594,
  821045069086554063174,
  821045068811743281474,
  673507145156524769604,
  673507145293863084354,
  821045068949182218564,
  821045069086520533314,
  673507145156491215174,
  673507145019052286274,
  821045068949148664134,
  821045068811709735234,
  673507145019085824324,
  673507145293863067974,
  821045068811743273284,
  821045069086520516934,
  673507145019052269894,
  673507145019052269894,
  821045068811709718854,
  821045068811709718854,
  821045060434375483584,
  821045078022265512384,
  821045060296970084544,
  821045077884860113344,
  673507136366873690304,
  673507154092135571904,
  673507136366873690304,
  673507154092135571904,
  821045060434375475394,
  821045078022265504194,
  821045060296970076354,
  821045077884860105154,
  673507136366873673924,
  673507154092102017474,
  823350340218791395524,
  823350357944019739074,
  673507136366840119494,
  673507153817291219394,
  823350340218757841094,
  823350357669208940994,
  673507136229434736834,
  673507154092135547334,
  673507136229434736834,
  673507154092135547334,
  673507136229434728644,
  673507154092102001094,
  823350340081352450244,
  823350357944019722694,
  673507136229401174214,
  673507153817291203014,
  823350340081318895814,
  823350357669208924614,
  821045060432228524224,
  821045069228319973824,
  821045060294823125184,
  821045069090914574784,
  673507136364726730944,
  673507145298190033344,
  673507136364726730944,
  673507145298190033344,
  821045060432228516034,
  821045069228319965634,
  821045060294823116994,
  821045069090914566594,
  673507136364726714564,
  673507145298156478914,
  823350340216644436164,
  823350349150074200514,
  673507136364693160134,
  673507145023345680834,
  823350340216610881734,
  823350348875263402434,
  673507136227287777474,
  673507145298190008774,
  673507136227287777474,
  673507145298190008774,
  673507136227287769284,
  673507145298156462534,
  823350340079205490884,
  823350349150074184134,
  673507136227254214854,
  673507145023345664454,
  823350340079171936454,
  823350348875263386054,
  821045060430047478084,
  821045069223958954434,
  821045060292608524614,
  821045068811742757314,
  673507136362579231044,
  673507145293862560194,
  673507136362579231044,
  673507145293862560194,
  673507136362545676614,
  673507145019051762114,
  673507136362545676614,
  673507145019051762114,
  673507136225140285764,
  673507145293862543814,
  673507136225140285764,
  673507145293862543814,
  673507136225106731334,
  673507145019051745734,
  673507136225106731334,
  673507145019051745734,
  164412590478073920,
  164412590478073920,
  164412453072674880,
  164412453072674880,
  164412315633729600,
  164412453005582400,
  164412590478065730,
  164412590478065730,
  164412453072666690,
  164412453072666690,
  164412178194776130,
  164412453005557830,
  164403796532535360,
  164403796532535360,
  164403659127136320,
  164403659127136320,
  164403521688191040,
  164403659060043840,
  164403796532527170,
  164403796532527170,
  164403659127128130,
  164403659127128130,
  164403384249237570,
  164403659060019270,
  164412588331114560,
  164412588331114560,
  164412450925715520,
  164412450925715520,
  164412588331106370,
  164412588331106370,
  164412450925707330,
  164412450925707330,
  164412588297551940,
  164412588264013890,
  164412450858598470,
  164412176047816770,
  164412313486753860,
  164412450825068610,
  164412313453199430,
  164412176014270530,
  164412176047808580,
  164412450825052230,
  164412176014254150,
  164412176014254150,
  164403792238616640,
  164395000440037440,
  164403654833217600,
  164394863034638400,
  164403792238608450,
  164395000440029250,
  164403654833209410,
  164394863034630210,
  164403792205054020,
  164395000372936770,
  164403654766100550,
  164394588156739650,
  164403517394255940,
  164394862933991490,
  164403517360701510,
  164394588123193410,
  164403379955310660,
  164394862933975110,
  164403379921756230,
  164394588123177030,
  164395000440037440,
  164403792238616640,
  164394863034638400,
  164403654833217600,
  164394725595693120,
  164403654766125120,
  164395000440029250,
  164403792238608450,
  164394863034630210,
  164403654833209410,
  164394725595676740,
  164403654732570690,
  164394725562122310,
  164403379921772610,
  164394588156739650,
  164403654766100550,
  164394588156731460,
  164403654732554310,
  164394588123177030,
  164403379921756230,
  164394998293078080,
  164394998293078080,
  164394860887679040,
  164394860887679040,
  164394723448733760,
  164394860820586560,
  164394998293069890,
  164394998293069890,
  164394860887670850,
  164394860887670850,
  164394723448717380,
  164394860787032130]
def ccdq_t4_aabbaabb_cert_2 : List Nat := [164394723415162950,
  164394585976234050,
  164394586009780290,
  164394860820561990,
  164394586009772100,
  164394860787015750,
  164394585976217670,
  164394585976217670,
  164412586183631040,
  164412588330066240,
  164412448778232000,
  164412450924667200,
  164412586183622850,
  164412588330058050,
  164412448778223810,
  164412450924659010,
  164412586150068420,
  164412588262965570,
  164412448711114950,
  164412176046768450,
  164412311339270340,
  164412450824020290,
  164412311305715910,
  164412176013222210,
  164412173900325060,
  164412450824003910,
  164412173866770630,
  164412176013205830,
  164403790091133120,
  164395000438989120,
  164403652685734080,
  164394863033590080,
  164403790091124930,
  164395000438980930,
  164403652685725890,
  164394863033581890,
  164403790057570500,
  164395000371888450,
  164403652618617030,
  164394588155691330,
  164403515246772420,
  164394862932943170,
  164403515213217990,
  164394588122145090,
  164403377807827140,
  164394862932926790,
  164403377774272710,
  164394588122128710,
  164394993964548420,
  164394993931010370,
  164394856525594950,
  164394581714813250,
  164394719153750340,
  164394856492065090,
  164394719120195910,
  164394581681267010,
  164394581714805060,
  164394856492048710,
  164394581681250630,
  164394581681250630,
  164386204347015360,
  164403792237044160,
  164386066941616320,
  164403654831645120,
  164385929502671040,
  164403654764552640,
  164386204347007170,
  164403792237035970,
  164386066941608130,
  164403654831636930,
  164385929502654660,
  164403654730998210,
  164385929469100230,
  164403379920200130,
  164385792063717570,
  164403654764528070,
  164385792063709380,
  164403654730981830,
  164385792030154950,
  164403379920183750,
  164386202200056000,
  164394998291505600,
  164386064794656960,
  164394860886106560,
  164385927355711680,
  164394860819014080,
  164386202200047810,
  164394998291497410,
  164386064794648770,
  164394860886098370,
  164385927355695300,
  164394860785459650,
  164385927322140870,
  164394585974661570,
  164385789916758210,
  164394860818989510,
  164385789916750020,
  164394860785443270,
  164385789883195590,
  164394585974645190,
  164386200019009860,
  164394993930486210,
  164386062580056390,
  164394581714289090,
  164385925208211780,
  164394856491540930,
  164385925174657350,
  164394581680742850,
  164385787769266500,
  164394856491524550,
  164385787735712070,
  164394581680726470,
  823350366879766814784,
  823350366879766814784,
  823350366879766814784,
  823350366879766814784,
  675812443087109365824,
  675812443087109365824,
  823350366879766806594,
  823350366879766806594,
  823350366879766806594,
  823350366879766806594,
  675812443087109357634,
  675812443087109357634,
  821045086818359582784,
  821045086818359582784,
  673507163025702133824,
  673507163025702133824,
  823350366877619855424,
  823350366877619855424,
  821045086818359574594,
  821045086818359574594,
  673507163025702125634,
  673507163025702125634,
  823350366877619847234,
  823350366877619847234,
  823350366877586292804,
  823350366877552754754,
  823350366877586292804,
  823350366877552754754,
  675812443084928843844,
  675812443084895305794,
  823350366740147339334,
  823350366465336557634,
  823350366740147339334,
  823350366465336557634,
  675812442947489890374,
  675812442672679108674,
  821045078022267084864,
  821045069230468505664,
  673507154229609635904,
  673507145437811056704,
  823350358081527357504,
  823350349289728778304,
  821045078022267076674,
  821045069230468497474,
  673507154229609627714,
  673507145437811048514,
  823350358081527349314,
  823350349289728770114,
  823350358081493794884,
  823350349289661677634,
  823350358081493794884,
  823350349289661677634,
  675812434288836345924,
  675812425497004228674,
  823350357944054841414,
  823350348877445480514,
  823350357944054841414,
  823350348877445480514,
  675812434151397392454,
  675812425084788031554,
  821045086816212099264,
  821045086818358534464,
  673507163023554650304,
  673507163025701085504,
  823350366875472371904,
  823350366877618807104,
  821045086816212091074,
  821045086818358526274,
  673507163023554642114,
  673507163025701077314,
  823350366875472363714,
  823350366877618798914,
  823350366875438809284,
  823350366877551706434,
  823350366875438809284,
  823350366877551706434,
  675812443082781360324,
  675812443084894257474,
  823350366737999855814,
  823350366465335509314,
  823350366737999855814,
  823350366465335509314,
  675812442945342406854,
  675812442672678060354,
  821045078020119601344,
  821045069230467457344,
  673507154227462152384,
  673507145437810008384,
  823350358079379873984,
  823350349289727729984,
  821045078020119593154,
  821045069230467449154,
  673507154227462144194,
  673507145437810000194,
  823350358079379865794,
  823350349289727721794,
  823350358079346311364,
  823350349289660629314,
  823350358079346311364,
  823350349289660629314,
  675812434286688862404,
  675812425497003180354,
  823350357941907357894,
  823350348877444432194,
  823350357941907357894,
  823350348877444432194,
  675812434149249908934,
  675812425084786983234,
  821045069223993016644,
  821045069223959478594,
  673507145431335567684,
  673507145431302029634,
  823350349283253289284,
  823350349283219751234,
  821045069086554063174,
  821045068811743281474,
  673507145293896614214,
  673507145019085832514,
  823350349145814335814,
  823350348871003554114,
  823350366879733268544,
  823350366879733268544,
  823350366742294323264,
  823350366604922470464,
  823350366879699714114,
  823350366879733252164,
  823350366742260768834,
  823350366604922454084,
  675812434293130281024,
  675812434293130281024,
  675812434155691335744,
  675812434018319482944,
  675812434293096726594,
  675812434293130264644,
  675812434155657781314,
  675812434018319466564,
  823350366877619855424,
  823350366877619855424,
  821045086818359582784,
  821045086818359582784,
  675812443084928860224,
  675812443084928860224,
  673507163025668587584,
  673507163025668587584,
  675812442947489914944,
  675812442810118062144,
  673507162888229642304,
  673507162750857789504,
  675812443084895305794,
  675812443084928843844,
  673507163025635033154,
  673507163025668571204,
  675812442947456360514,
  675812442810118045764,
  673507162888196087874,
  673507162750857773124,
  823350358081527357504,
  823350349289728778304,
  821045078022267084864,
  821045069230468505664,
  675812434288836362304,
  675812425497037783104,
  673507154229576089664,
  673507145437777510464,
  675812434151397417024,
  675812425222226985024,
  673507154092137144384,
  673507145162966712384,
  675812434288802807874,
  675812425497037766724,
  673507154229542535234,
  673507145437777494084,
  675812434151363862594,
  675812425222226968644,
  673507154092103589954,
  673507145162966696004,
  823350349289695232064,
  823350358081493811264,
  821045069230434959424,
  821045078022233538624,
  823350349152256286784,
  823350357806683013184,
  821045069092996014144,
  821045077747422740544,
  823350349289661677634,
  823350358081493794884,
  821045069230401404994,
  821045078022233522244,
  823350349152222732354,
  823350357806682996804,
  821045069092962459714,
  821045077747422724164,
  675812425222126329924,
  675812434013924909124,
  673507145162866057284,
  673507153954664636484,
  823350349287548272704,
  823350349287548272704,
  821045069228288000064,
  821045069228288000064,
  823350349150109327424,
  823350349012737474624,
  821045069090849054784,
  821045068953477201984,
  823350349287514718274,
  823350349287548256324,
  821045069228254445634,
  821045069228287983684,
  823350349150075772994,
  823350349012737458244,
  821045069090815500354,
  821045068953477185604,
  675812425219979370564,
  675812425219979370564,
  673507145160719097924,
  673507145160719097924,
  823350366875472371904,
  823350366877618807104,
  821045086816212099264,
  821045086818358534464,
  675812443082781376704,
  675812443084927811904,
  673507163023521104064,
  673507163025667539264,
  675812442945342431424,
  675812442810117013824,
  673507162886082158784,
  673507162750856741184,
  675812443082747822274,
  675812443084927795524,
  673507163023487549634,
  673507163025667522884,
  675812442945308876994,
  675812442810116997444,
  673507162886048604354,
  673507162750856724804,
  823350358079379873984,
  823350349289727729984,
  821045078020119601344,
  821045069230467457344,
  675812434286688878784,
  675812425497036734784,
  673507154227428606144,
  673507145437776462144,
  675812434149249933504,
  675812425222225936704,
  673507154089989660864,
  673507145162965664064,
  675812434286655324354,
  675812425497036718404,
  673507154227395051714,
  673507145437776445764,
  675812434149216379074,
  675812425222225920324,
  673507154089956106434,
  673507145162965647684,
  823350349283253305664,
  823350349283253305664,
  823350349145814360384,
  823350349008442507584,
  823350349283219751234,
  823350349283253289284,
  823350349145780805954,
  823350349008442491204,
  823350340493602209984,
  823350358081492238784,
  821045060434341937344,
  821045078022231966144,
  823350340356163264704,
  823350357806681440704,
  821045060296902992064,
  821045077747421168064,
  823350340493568655554,
  823350358081492222404,
  821045060434308382914,
  821045078022231949764,
  823350340356129710274,
  823350357806681424324,
  821045060296869437634,
  821045077747421151684,
  675812416426033307844,
  675812434013923336644,
  673507136366773035204,
  673507153954663064004,
  823350340491455250624,
  823350349287546700224,
  821045060432194977984,
  821045069228286427584]
def ccdq_t4_aabbaabb_cert_3 : List Nat := [823350340354016305344,
  823350349012735902144,
  821045060294756032704,
  821045068953475629504,
  823350340491421696194,
  823350349287546683844,
  821045060432161423554,
  821045069228286411204,
  823350340353982750914,
  823350349012735885764,
  821045060294722478274,
  821045068953475613124,
  675812416423886348484,
  675812425219977798084,
  673507136364626075844,
  673507145160717525444,
  675812416696650318144,
  675812425490595332544,
  675812416559211372864,
  675812425215784534464,
  675812416696616763714,
  675812425490595316164,
  675812416559177818434,
  675812425215784518084,
  823350366879766814784,
  823350366879766814784,
  823350366877619855424,
  823350366877619855424,
  675812443084962406464,
  675812443084962406464,
  821045086818359582784,
  821045086818359582784,
  673507163025702133824,
  673507163025702133824,
  823350358081527357504,
  823350349289728778304,
  675812434288869908544,
  675812425497071329344,
  821045078022267084864,
  821045069230468505664,
  673507154229609635904,
  673507145437811056704,
  823350366875472371904,
  823350366877618807104,
  675812443082814922944,
  675812443084961358144,
  821045086816212099264,
  821045086818358534464,
  673507163023554650304,
  673507163025701085504,
  823350358079379873984,
  823350349289727729984,
  675812434286722425024,
  675812425497070281024,
  821045078020119601344,
  821045069230467457344,
  673507154227462152384,
  673507145437810008384,
  823350349283286851904,
  823350349283286851904,
  811818900033884659776,
  811818900033884659776,
  811818900031737700416,
  811818900031737700416,
  664280976239080251456,
  664280976239080251456,
  811818891235645202496,
  811818882443846623296,
  664280967442987753536,
  664280958651189174336,
  811818900029590216896,
  811818900031736652096,
  664280976236932767936,
  664280976239079203136,
  811818891233497718976,
  811818882443845574976,
  664280967440840270016,
  664280958651188126016,
  811818882437404696896,
  811818882437404696896,
  811818900033851113536,
  811818900033851113536,
  811818899896412168256,
  811818899759040315456,
  811818900033817559106,
  811818900033851097156,
  811818899896378613826,
  811818899759040299076,
  811818900031737700416,
  811818900031737700416,
  664280976239046705216,
  664280976239046705216,
  664280976101607759936,
  664280975964235907136,
  664280976239013150786,
  664280976239046688836,
  664280976101574205506,
  664280975964235890756,
  811818891235645202496,
  811818882443846623296,
  664280967442954207296,
  664280958651155628096,
  664280967305515262016,
  664280958376344830016,
  664280967442920652866,
  664280958651155611716,
  664280967305481707586,
  664280958376344813636,
  664280976241193140416,
  664280976241193140416,
  664280976103754195136,
  664280975966382342336,
  664280976241159585986,
  664280976241193124036,
  664280976103720640706,
  664280975966382325956,
  811818900031703105856,
  811818900029556670656,
  811818899894264160576,
  811818899754745872576,
  811818900031669551426,
  811818900029556654276,
  811818899894230606146,
  811818899754745856196,
  664280975964134203716,
  664280975961987768516,
  811818891235610083776,
  811818873647720054976,
  811818891098171138496,
  811818873372909256896,
  811818891235576529346,
  811818873647720038596,
  811818891098137584066,
  811818873372909240516,
  664280967168041181636,
  664280949580151152836,
  811818900029590216896,
  811818900031736652096,
  664280976236899221696,
  664280976239045656896,
  664280976099460276416,
  664280975964234858816,
  664280976236865667266,
  664280976239045640516,
  664280976099426721986,
  664280975964234842436,
  811818891233497718976,
  811818882443845574976,
  664280967440806723776,
  664280958651154579776,
  664280967303367778496,
  664280958376343781696,
  664280967440773169346,
  664280958651154563396,
  664280967303334224066,
  664280958376343765316,
  811818900029556146496,
  811818900029556146496,
  811818899892117201216,
  811818899754745348416,
  811818900029522592066,
  811818900029556130116,
  811818899892083646786,
  811818899754745332036,
  664280975961987244356,
  664280975961987244356,
  811818891233463124416,
  811818873647719530816,
  811818891096024179136,
  811818873372908732736,
  811818891233429569986,
  811818873647719514436,
  811818891095990624706,
  811818873372908716356,
  664280967165894222276,
  664280949580150628676,
  811818882437371150656,
  811818882437371150656,
  811818882299932205376,
  811818882162560352576,
  811818882437337596226,
  811818882437371134276,
  811818882299898650946,
  811818882162560336196,
  664280958644713177536,
  664280949850768163136,
  664280958507274232256,
  664280949575957365056,
  664280958644679623106,
  664280949850768146756,
  664280958507240677826,
  664280949575957348676,
  823350366879766814784,
  823350366879766814784,
  823350366879766814784,
  823350366879766814784,
  821045086820506542144,
  821045086820506542144,
  675812443087075819584,
  675812443087075819584,
  673507163027815546944,
  673507163027815546944,
  823350366879733268544,
  823350366879733268544,
  675812442949636874304,
  675812442812265021504,
  673507162890376601664,
  673507162753004748864,
  823350366742294323264,
  823350366604922470464,
  675812443087042265154,
  675812443087075803204,
  673507163027781992514,
  673507163027815530564,
  823350366879699714114,
  823350366879733252164,
  675812442949603319874,
  675812442812265005124,
  673507162890343047234,
  673507162753004732484,
  823350366742260768834,
  823350366604922454084,
  823350366879766290624,
  823350366879766290624,
  823350366879766290624,
  823350366879766290624,
  821045086820506017984,
  821045086820506017984,
  675812443087075295424,
  675812443087075295424,
  673507163027815022784,
  673507163027815022784,
  823350366879732744384,
  823350366879732744384,
  675812442949636350144,
  675812442812264497344,
  673507162890376077504,
  673507162753004224704,
  823350366742293799104,
  823350366604921946304,
  675812443087041740994,
  675812443087075279044,
  673507163027781468354,
  673507163027815006404,
  823350366879699189954,
  823350366879732728004,
  675812442949602795714,
  675812442812264480964,
  673507162890342523074,
  673507162753004208324,
  823350366742260244674,
  823350366604921929924,
  823350366877585260864,
  823350366875438825664,
  823350366877585260864,
  823350366875438825664,
  821045086818324988224,
  821045086816178553024,
  823350366740146315584,
  823350366600628027584,
  823350366740146315584,
  823350366600628027584,
  821045086680886042944,
  821045086541367754944,
  823350366877551706434,
  823350366875438809284,
  823350366877551706434,
  823350366875438809284,
  821045086818291433794,
  821045086816178536644,
  823350366740112761154,
  823350366600628011204,
  823350366740112761154,
  823350366600628011204,
  821045086680852488514,
  821045086541367738564,
  675812442810016358724,
  675812442807869923524,
  673507162750756086084,
  673507162748609650884,
  823350366602673807684,
  823350366600527372484,
  823350358081492238784,
  823350340493602209984,
  823350358081492238784,
  823350340493602209984,
  821045078022231966144,
  821045060434341937344,
  823350357944053293504,
  823350340218791411904,
  823350357944053293504,
  823350340218791411904,
  821045077884793020864,
  821045060159531139264,
  823350358081458684354,
  823350340493602193604,
  823350358081458684354,
  823350340493602193604,
  821045078022198411714,
  821045060434341920964,
  823350357944019739074,
  823350340218791395524,
  823350357944019739074,
  823350340218791395524,
  821045077884759466434,
  821045060159531122884,
  675812434013923336644,
  675812416426033307844,
  673507153954663064004,
  673507136366773035204,
  823350357806580785604,
  823350340218690756804,
  823350366879766814784,
  823350366879766814784,
  823350366879766814784,
  823350366879766814784,
  673507163027849093184,
  673507163027849093184,
  823350366879766814784,
  823350366879766814784,
  823350366879766806594,
  823350366879766806594,
  823350366879766806594,
  823350366879766806594,
  673507163027849084994,
  673507163027849084994,
  823350366879766806594,
  823350366879766806594,
  675812443087075803204,
  675812443087042265154,
  675812442949636849734,
  675812442674826068034,
  823350366879766290624,
  823350366879766290624,
  823350366879766290624,
  823350366879766290624,
  673507163027848569024,
  673507163027848569024,
  823350366879766290624,
  823350366879766290624,
  823350366879766282434,
  823350366879766282434,
  823350366879766282434,
  823350366879766282434,
  673507163027848560834,
  673507163027848560834,
  823350366879766282434,
  823350366879766282434,
  675812443087075279044,
  675812443087041740994,
  675812442949636325574,
  675812442674825543874,
  821045086818358534464,
  821045086816212099264,
  821045086818358526274,
  821045086816212091074,
  823350366877585244484,
  823350366875405271234,
  823350366877585244484,
  823350366875405271234,
  673507163025667522884,
  673507163023487549634,
  823350366877585244484,
  823350366875405271234,
  823350366740146291014,
  823350366463189074114,
  823350366740146291014,
  823350366463189074114,
  673507162888228569414,
  673507162611271352514,
  823350366740146291014,
  823350366463189074114,
  821045078022265512384,
  821045060434375483584,
  821045078022265504194,
  821045060434375475394,
  823350358081492222404,
  823350340493568655554,
  823350358081492222404,
  823350340493568655554,
  673507154229574500804,
  673507136641650933954,
  823350358081492222404,
  823350340493568655554,
  823350357944053268934,
  823350340081352458434,
  823350357944053268934,
  823350340081352458434,
  673507154092135547334,
  673507136229434736834,
  823350357944053268934,
  823350340081352458434,
  823350366879766814784,
  823350366879766814784,
  823350366879733268544,
  823350366879733268544,
  821045086820472995904,
  821045086820472995904,
  675812443087075819584,
  675812443087075819584]
def ccdq_t4_aabbaabb_cert_4 : List Nat := [673507163027815546944,
  673507163027815546944,
  823350366742294323264,
  823350366604922470464,
  821045086683034050624,
  821045086545662197824,
  675812442949636874304,
  675812442812265021504,
  673507162890376601664,
  673507162753004748864,
  823350366879699714114,
  823350366879733252164,
  821045086820439441474,
  821045086820472979524,
  675812443087042265154,
  675812443087075803204,
  673507163027781992514,
  673507163027815530564,
  823350366742260768834,
  823350366604922454084,
  821045086683000496194,
  821045086545662181444,
  675812442949603319874,
  675812442812265005124,
  673507162890343047234,
  673507162753004732484,
  823350366604821815364,
  823350366604821815364,
  11531498049961205824,
  11531498049961205824,
  11531498049927659584,
  11531498049927659584,
  9226217990667386944,
  9226217990667386944,
  11531497912488714304,
  11531497775116861504,
  9226217853228441664,
  9226217715856588864,
  11531498049894105154,
  11531498049927643204,
  9226217990633832514,
  9226217990667370564,
  11531497912455159874,
  11531497775116845124,
  9226217853194887234,
  9226217715856572484,
  11531497775016206404,
  11531497775016206404,
  164412590478073920,
  164412590478073920,
  164412590478073920,
  164412590478073920,
  164412453072674880,
  164412453072674880,
  164412453072674880,
  164412453072674880,
  164412315633729600,
  164412453005582400,
  164412178194776130,
  164412453005557830,
  164403796532535360,
  164403796532535360,
  164403796532535360,
  164403796532535360,
  164403659127136320,
  164403659127136320,
  164403659127136320,
  164403659127136320,
  164403521688191040,
  164403659060043840,
  164403384249237570,
  164403659060019270,
  164395000440037440,
  164403792238616640,
  164394863034638400,
  164403654833217600,
  164394725595693120,
  164403654766125120,
  164394725595693120,
  164403654766125120,
  164394588156739650,
  164403654766100550,
  164394588156739650,
  164403654766100550,
  164386204347015360,
  164403792237044160,
  164386066941616320,
  164403654831645120,
  164385929502671040,
  164403654764552640,
  164385929502671040,
  164403654764552640,
  164385792063717570,
  164403654764528070,
  164385792063717570,
  164403654764528070,
  2283003892736064,
  2283003892736064,
  2282866487337024,
  2282866487337024,
  2283003892736064,
  2283003892736064,
  2283003892727874,
  2283003892727874,
  162160790664388672,
  162160790664388672,
  162160790663864512,
  162160790663864512,
  162160790664388672,
  162160790664388672,
  162151996718850112,
  162151996718850112,
  9226217990700933184,
  9226217990700933184,
  9226217990700933184,
  9226217990700933184,
  11531498049961205824,
  11531498049961205824,
  9226217990700933184,
  9226217990700933184,
  9226217853295534144,
  9226217853295534144,
  11531498049961205824,
  11531498049961205824,
  11531497912555806784,
  11531497912555806784,
  9226217990700933184,
  9226217990700933184,
  11531498049961205824,
  11531498049961205824,
  9226217990700933184,
  9226217990700933184,
  164412590478073920,
  164412590478073920,
  164412453072674880,
  164412453072674880,
  164412590477549760,
  164412590477549760,
  164412453072150720,
  164412453072150720,
  164412590478073920,
  164412590478073920,
  164412590478065730,
  164412590478065730,
  164412590477549760,
  164412590477549760,
  164412590477541570,
  164412590477541570,
  164412590478073920,
  164412590478073920,
  164412590478065730,
  164412590478065730,
  164412590477549760,
  164412590477549760,
  164412590477541570,
  164412590477541570,
  164412590478073920,
  164412590478073920,
  164412453072674880,
  164412453072674880,
  164403796532535360,
  164403796532535360,
  164403659127136320,
  164403659127136320,
  164412590478073920,
  164412590478073920,
  164412453072674880,
  164412453072674880,
  164403796532535360,
  164403796532535360,
  164403659127136320,
  164403659127136320,
  164412590478073920,
  164412590478073920,
  164412590478065730,
  164412590478065730,
  164403796532535360,
  164403796532535360,
  164403796532527170,
  164403796532527170,
  811818900033884659776,
  811818900033884659776,
  811818900033884659776,
  811818900033884659776,
  664280976241227210816,
  664280976241227210816,
  811818900033884659776,
  811818900033884659776,
  811818900033884135616,
  811818900033884135616,
  664280976241227210816,
  664280976241227210816,
  664280976241226686656,
  664280976241226686656,
  811818900033884659776,
  811818900033884659776,
  664280976241227210816,
  664280976241227210816,
  811818900033884659776,
  811818900033884659776,
  823350366879766814784,
  823350366879766814784,
  823350366742361415744,
  823350366742361415744,
  675812443087109365824,
  675812443087109365824,
  675812442949703966784,
  675812442949703966784,
  823350366879766814784,
  823350366879766814784,
  823350366742361415744,
  823350366742361415744,
  823350366879766814784,
  823350366879766814784,
  823350366879766806594,
  823350366879766806594,
  821045086820506542144,
  821045086820506542144,
  821045086820506533954,
  821045086820506533954,
  673507163027849093184,
  673507163027849093184,
  673507163027849084994,
  673507163027849084994,
  821045086820506542144,
  821045086820506542144,
  821045086820506542144,
  821045086820506542144,
  823350366879766814784,
  823350366879766814784,
  673507163027849093184,
  673507163027849093184,
  675812443087109365824,
  675812443087109365824,
  821045086820506542144,
  821045086820506542144,
  821045086683101143104,
  821045086683101143104,
  823350366879766814784,
  823350366879766814784,
  823350366742361415744,
  823350366742361415744,
  673507163027849093184,
  673507163027849093184,
  673507162890443694144,
  673507162890443694144,
  675812443087109365824,
  675812443087109365824,
  675812442949703966784,
  675812442949703966784,
  821045086820506542144,
  821045086820506542144,
  823350366879766814784,
  823350366879766814784,
  673507163027849093184,
  673507163027849093184,
  675812443087109365824,
  675812443087109365824,
  821045086820506542144,
  821045086820506542144,
  821045086820506542144,
  821045086820506542144,
  821045086820506017984,
  821045086820506017984,
  673507163027849093184,
  673507163027849093184,
  673507163027848569024,
  673507163027848569024,
  675812443087109365824,
  675812443087109365824,
  675812443087108841664,
  675812443087108841664,
  675812443087109365824,
  675812443087109365824,
  675812442949703966784,
  675812442949703966784,
  675812443087108841664,
  675812443087108841664,
  675812442949703442624,
  675812442949703442624,
  823350366879766814784,
  823350366879766814784,
  823350366879766806594,
  823350366879766806594,
  823350366879766290624,
  823350366879766290624,
  823350366879766282434,
  823350366879766282434,
  823350366879766814784,
  823350366879766814784,
  823350366879766806594,
  823350366879766806594,
  823350366879766290624,
  823350366879766290624,
  823350366879766282434,
  823350366879766282434,
  673507163027849093184,
  673507163027849093184,
  673507163027849084994,
  673507163027849084994,
  673507163027848569024,
  673507163027848569024,
  673507163027848560834,
  673507163027848560834,
  823350366879766814784,
  823350366879766814784,
  823350366879766806594,
  823350366879766806594,
  823350366879766290624,
  823350366879766290624,
  823350366879766282434,
  823350366879766282434,
  673507163027849093184,
  673507163027849093184,
  673507163027848569024,
  673507163027848569024,
  675812443087109365824,
  675812443087109365824,
  675812443087108841664,
  675812443087108841664,
  821045086820506542144,
  821045086820506542144,
  821045086820506017984,
  821045086820506017984,
  673507163027849093184,
  673507163027849093184,
  673507162890443694144,
  673507162890443694144,
  673507163027848569024,
  673507163027848569024,
  673507162890443169984,
  673507162890443169984,
  675812443087109365824,
  675812443087109365824,
  675812442949703966784,
  675812442949703966784,
  675812443087108841664,
  675812443087108841664,
  675812442949703442624,
  675812442949703442624,
  821045086820506542144,
  821045086820506542144,
  821045086683101143104,
  821045086683101143104,
  821045086820506017984,
  821045086820506017984,
  821045086683100618944,
  821045086683100618944,
  673507163027849093184,
  673507163027849093184,
  673507163027848569024,
  673507163027848569024,
  675812443087109365824,
  675812443087109365824,
  675812443087108841664,
  675812443087108841664,
  821045086820506542144,
  821045086820506542144,
  821045086820506017984,
  821045086820506017984,
  821045086820506542144,
  821045086820506542144,
  821045086820506017984,
  821045086820506017984,
  821045086820506542144,
  821045086820506542144,
  821045086820506017984,
  821045086820506017984,
  823350366879766814784,
  823350366879766814784,
  823350366879766290624,
  823350366879766290624,
  821045086820506542144,
  821045086820506542144,
  821045078026561003584,
  821045078026561003584,
  823350366879766814784,
  823350366879766814784,
  823350358085821276224,
  823350358085821276224,
  821045086820506542144,
  821045086820506542144,
  821045078026561003584,
  821045078026561003584,
  823350366879766814784,
  823350366879766814784,
  823350366742361415744,
  823350366742361415744,
  823350358085821276224,
  823350358085821276224,
  823350357948415877184,
  823350357948415877184,
  823350366879766814784,
  823350366879766814784,
  823350366742361415744,
  823350366742361415744,
  823350358085821276224,
  823350358085821276224,
  823350357948415877184,
  823350357948415877184]
def ccdq_t4_aabbaabb_cert_5 : List Nat := [673507163027849093184,
  673507163027849093184,
  673507162890443694144,
  673507162890443694144,
  673507154233903554624,
  673507154233903554624,
  673507154096498155584,
  673507154096498155584,
  823350366879766814784,
  823350366879766814784,
  823350366742361415744,
  823350366742361415744,
  823350358085821276224,
  823350358085821276224,
  823350357948415877184,
  823350357948415877184,
  821045086820506542144,
  821045086820506542144,
  821045086820506533954,
  821045086820506533954,
  821045078026561003584,
  821045078026561003584,
  821045078026560995394,
  821045078026560995394,
  673507163027849093184,
  673507163027849093184,
  673507154233903554624,
  673507154233903554624,
  675812443087109365824,
  675812443087109365824,
  675812434293163827264,
  675812434293163827264,
  821045086820506542144,
  821045086820506542144,
  821045078026561003584,
  821045078026561003584,
  821045086820506542144,
  821045086820506542144,
  821045078026561003584,
  821045078026561003584,
  821045086820506542144,
  821045086820506542144,
  821045078026561003584,
  821045078026561003584,
  823350366879766814784,
  823350366879766814784,
  823350358085821276224,
  823350358085821276224,
  821045086820506542144,
  821045086820506542144,
  821045086683101143104,
  821045086683101143104,
  821045078026561003584,
  821045078026561003584,
  821045077889155604544,
  821045077889155604544,
  821045086820506542144,
  821045086820506542144,
  821045086683101143104,
  821045086683101143104,
  821045078026561003584,
  821045078026561003584,
  821045077889155604544,
  821045077889155604544,
  823350366879766814784,
  823350366879766814784,
  823350366742361415744,
  823350366742361415744,
  823350358085821276224,
  823350358085821276224,
  823350357948415877184,
  823350357948415877184,
  821045086820506542144,
  821045086820506542144,
  821045078026561003584,
  821045078026561003584,
  821045086820506542144,
  821045086820506542144,
  821045078026561003584,
  821045078026561003584,
  823350366879766814784,
  823350366879766814784,
  823350358085821276224,
  823350358085821276224,
  821045086820506542144,
  821045086820506542144,
  821045086820506542144,
  821045086820506542144,
  673507163027849093184,
  673507163027849093184,
  823350366879766814784,
  823350366879766814784,
  675812443087109365824,
  675812443087109365824,
  823350366879766814784,
  823350366879766814784,
  823350366742361415744,
  823350366742361415744,
  823350366879766814784,
  823350366879766814784,
  823350366742361415744,
  823350366742361415744,
  675812443087109365824,
  675812443087109365824,
  675812442949703966784,
  675812442949703966784,
  823350366879766814784,
  823350366879766814784,
  823350366879766806594,
  823350366879766806594,
  823350366879766814784,
  823350366879766814784,
  823350366879766806594,
  823350366879766806594,
  675812443087109365824,
  675812443087109365824,
  675812443087109357634,
  675812443087109357634,
  821045086820506542144,
  821045086820506542144,
  821045086820506533954,
  821045086820506533954,
  673507163027849093184,
  673507163027849093184,
  673507163027849084994,
  673507163027849084994,
  823350366879766814784,
  823350366879766814784,
  823350366879766806594,
  823350366879766806594,
  821045086820506542144,
  821045086820506542144,
  821045086820506017984,
  821045086820506017984,
  673507163027849093184,
  673507163027849093184,
  673507163027848569024,
  673507163027848569024,
  823350366879766814784,
  823350366879766814784,
  823350366879766290624,
  823350366879766290624,
  675812443087109365824,
  675812443087109365824,
  675812443087108841664,
  675812443087108841664,
  823350366879766814784,
  823350366879766814784,
  823350366742361415744,
  823350366742361415744,
  823350366879766290624,
  823350366879766290624,
  823350366742360891584,
  823350366742360891584,
  823350366879766814784,
  823350366879766814784,
  823350366742361415744,
  823350366742361415744,
  823350366879766290624,
  823350366879766290624,
  823350366742360891584,
  823350366742360891584,
  675812443087109365824,
  675812443087109365824,
  675812442949703966784,
  675812442949703966784,
  675812443087108841664,
  675812443087108841664,
  675812442949703442624,
  675812442949703442624,
  821045086820506542144,
  821045086820506542144,
  821045086820506533954,
  821045086820506533954,
  821045086820506017984,
  821045086820506017984,
  821045086820506009794,
  821045086820506009794,
  673507163027849093184,
  673507163027849093184,
  673507163027849084994,
  673507163027849084994,
  673507163027848569024,
  673507163027848569024,
  673507163027848560834,
  673507163027848560834,
  823350366879766814784,
  823350366879766814784,
  823350366879766806594,
  823350366879766806594,
  823350366879766290624,
  823350366879766290624,
  823350366879766282434,
  823350366879766282434,
  821045086820506542144,
  821045086820506542144,
  673507163027849093184,
  673507163027849093184,
  823350366879766814784,
  823350366879766814784,
  675812443087109365824,
  675812443087109365824,
  821045086820506542144,
  821045086820506542144,
  823350366879766814784,
  823350366879766814784,
  823350366742361415744,
  823350366742361415744,
  823350366879766814784,
  823350366879766814784,
  823350366742361415744,
  823350366742361415744,
  675812443087109365824,
  675812443087109365824,
  675812442949703966784,
  675812442949703966784,
  821045086820506542144,
  821045086820506542144,
  821045086683101143104,
  821045086683101143104,
  673507163027849093184,
  673507163027849093184,
  673507162890443694144,
  673507162890443694144,
  823350366879766814784,
  823350366879766814784,
  823350366742361415744,
  823350366742361415744,
  821045086820506542144,
  821045086820506542144,
  821045086820506533954,
  821045086820506533954,
  673507163027849093184,
  673507163027849093184,
  673507163027849084994,
  673507163027849084994,
  823350366879766814784,
  823350366879766814784,
  823350366879766806594,
  823350366879766806594,
  11531498049961205824,
  11531498049961205824,
  11531498049961197634,
  11531498049961197634,
  11531498049961205824,
  11531498049961205824,
  11531498049961197634,
  11531498049961197634,
  11531498049961205824,
  11531498049961205824,
  11531498049961205824,
  11531498049961205824,
  9226217990700933184,
  9226217990700933184,
  11531498049961205824,
  11531498049961205824,
  9226217990700933184,
  9226217990700933184,
  11531498049961205824,
  11531498049961205824,
  11531498049961205824,
  11531498049961205824,
  9226217990700933184,
  9226217990700933184,
  11531498049961205824,
  11531498049961205824,
  9226217990700933184,
  9226217990700933184,
  11531498049961205824,
  11531498049961205824,
  11531498049961205824,
  11531498049961205824,
  9226217990700933184,
  9226217990700933184,
  11531498049961205824,
  11531498049961205824,
  9226217990700933184,
  9226217990700933184,
  11531498049961205824,
  11531498049961205824,
  11531498049961205824,
  11531498049961205824,
  9226217990700933184,
  9226217990700933184,
  11531498049961205824,
  11531498049961205824,
  9226217990700933184,
  9226217990700933184,
  11531498049961205824,
  11531498049961205824,
  11531497912555806784,
  11531497912555806784,
  11531498049961205824,
  11531498049961205824,
  11531497912555806784,
  11531497912555806784,
  164412590478073920,
  164412590478073920,
  164412590478065730,
  164412590478065730,
  164412590478073920,
  164412590478073920,
  164412453072674880,
  164412453072674880,
  164412590478073920,
  164412590478073920,
  164412590478065730,
  164412590478065730,
  164412590477549760,
  164412590477549760,
  164412590477541570,
  164412590477541570,
  164412590478073920,
  164412590478073920,
  164412590478065730,
  164412590478065730,
  164412590478073920,
  164412590478073920,
  164412590478065730,
  164412590478065730,
  164412590477549760,
  164412590477549760,
  164412590477541570,
  164412590477541570,
  164412590478073920,
  164412590478073920,
  164412590478073920,
  164412590478073920,
  164412590478073920,
  164412590478073920,
  164412590478073920,
  164412590478073920,
  164412590478065730,
  164412590478065730,
  164412590478073920,
  164412590478073920,
  164412590478065730,
  164412590478065730,
  164412590478073920,
  164412590478073920,
  164412590477549760,
  164412590477549760,
  164412590478073920,
  164412590478073920,
  164412590477549760,
  164412590477549760,
  164412590478073920,
  164412590478073920,
  164412590478065730,
  164412590478065730,
  164412590477549760,
  164412590477549760,
  164412590477541570,
  164412590477541570,
  164412590478073920,
  164412590478073920,
  164412590478073920,
  164412590478073920,
  164412590478073920,
  164412590478073920,
  164412590478073920,
  164412590478073920,
  164412590477549760,
  164412590477549760,
  164412590478073920,
  164412590478073920,
  164412590477549760,
  164412590477549760,
  164412590478073920,
  164412590478073920,
  164412590478065730,
  164412590478065730,
  164412590478073920,
  164412590478073920,
  164412453072674880,
  164412453072674880,
  164412590478073920,
  164412590478073920,
  164412590478065730,
  164412590478065730,
  164412590478073920,
  164412590478073920,
  164412590478073920,
  164412590478073920,
  164412590478073920,
  164412590478073920,
  164412590478073920,
  164412590478073920,
  164412590478065730,
  164412590478065730,
  164412590478073920,
  164412590478073920,
  164412590478065730,
  164412590478065730,
  164412590478073920,
  164412590478073920,
  164412590478073920,
  164412590478073920,
  164412590478073920,
  164412590478073920]
def ccdq_t4_aabbaabb_cert_6 : List Nat := [164412590478073920,
  164412590478073920,
  164412590478065730,
  164412590478065730,
  164412590477549760,
  164412590477549760,
  164412590477541570,
  164412590477541570,
  164412590478073920,
  164412590478073920,
  164412453072674880,
  164412453072674880,
  164412590477549760,
  164412590477549760,
  164412453072150720,
  164412453072150720,
  164412590478073920,
  164412590478073920,
  164412590478065730,
  164412590478065730,
  164403796532535360,
  164403796532535360,
  164403796532527170,
  164403796532527170,
  164412590478073920,
  164412590478073920,
  164412590478065730,
  164412590478065730,
  164412590477549760,
  164412590477549760,
  164412590477541570,
  164412590477541570,
  164412590478073920,
  164412590478073920,
  164412590478065730,
  164412590478065730,
  164403796532535360,
  164403796532535360,
  164403796532527170,
  164403796532527170,
  164412590478073920,
  164412590478073920,
  164412590477549760,
  164412590477549760,
  164412590478073920,
  164412590478073920,
  164412590478065730,
  164412590478065730,
  164412590477549760,
  164412590477549760,
  164412590477541570,
  164412590477541570,
  164412590478073920,
  164412590478073920,
  164403796532535360,
  164403796532535360,
  164412590478073920,
  164412590478073920,
  164412590477549760,
  164412590477549760,
  164412590478073920,
  164412590478073920,
  164403796532535360,
  164403796532535360,
  164412590478073920,
  164412590478073920,
  164412590478065730,
  164412590478065730,
  164412590477549760,
  164412590477549760,
  164412590477541570,
  164412590477541570,
  164412590478073920,
  164412590478073920,
  164412453072674880,
  164412453072674880,
  164412590477549760,
  164412590477549760,
  164412453072150720,
  164412453072150720,
  164412590478073920,
  164412590478073920,
  164412590478065730,
  164412590478065730,
  164412590477549760,
  164412590477549760,
  164412590477541570,
  164412590477541570,
  164412590478073920,
  164412590478073920,
  164412590477549760,
  164412590477549760,
  164412590478073920,
  164412590478073920,
  164412590478065730,
  164412590478065730,
  164412590477549760,
  164412590477549760,
  164412590477541570,
  164412590477541570,
  164412590478073920,
  164412590478073920,
  164412590477549760,
  164412590477549760,
  811818900033884659776,
  811818900033884659776,
  664280976241227210816,
  664280976241227210816,
  811818900033884659776,
  811818900033884659776,
  811818899896479260736,
  811818899896479260736,
  664280976241227210816,
  664280976241227210816,
  664280976103821811776,
  664280976103821811776,
  811818900033884659776,
  811818900033884659776,
  664280976241227210816,
  664280976241227210816,
  811818900033884659776,
  811818900033884659776,
  664280976241227210816,
  664280976241227210816,
  664280976241226686656,
  664280976241226686656,
  664280976241227210816,
  664280976241227210816,
  664280976103821811776,
  664280976103821811776,
  664280976241226686656,
  664280976241226686656,
  664280976103821287616,
  664280976103821287616,
  664280976241227210816,
  664280976241227210816,
  664280976241226686656,
  664280976241226686656,
  811818900033884659776,
  811818900033884659776,
  811818900033884135616,
  811818900033884135616,
  664280976241227210816,
  664280976241227210816,
  811818900033884659776,
  811818900033884659776,
  664280976241227210816,
  664280976241227210816,
  664280976103821811776,
  664280976103821811776,
  811818900033884659776,
  811818900033884659776,
  811818899896479260736,
  811818899896479260736,
  664280976241227210816,
  664280976241227210816,
  811818900033884659776,
  811818900033884659776,
  811818900033884659776,
  811818900033884659776,
  823350366879766814784,
  823350366879766814784,
  823350366879766806594,
  823350366879766806594,
  823350366879766814784,
  823350366879766814784,
  823350366879766806594,
  823350366879766806594,
  823350366879766814784,
  823350366879766814784,
  675812443087109365824,
  675812443087109365824,
  823350366879766814784,
  823350366879766814784,
  675812443087109365824,
  675812443087109365824,
  821045086820506542144,
  821045086820506542144,
  673507163027849093184,
  673507163027849093184,
  823350366879766814784,
  823350366879766814784,
  675812443087109365824,
  675812443087109365824,
  821045086820506542144,
  821045086820506542144,
  673507163027849093184,
  673507163027849093184,
  823350366879766814784,
  823350366879766814784,
  675812443087109365824,
  675812443087109365824,
  823350366879766814784,
  823350366879766814784,
  675812443087109365824,
  675812443087109365824,
  821045086820506542144,
  821045086820506542144,
  673507163027849093184,
  673507163027849093184,
  823350366879766814784,
  823350366879766814784,
  675812443087109365824,
  675812443087109365824,
  821045086820506542144,
  821045086820506542144,
  673507163027849093184,
  673507163027849093184,
  823350366879766814784,
  823350366879766814784,
  675812443087109365824,
  675812443087109365824,
  823350366879766814784,
  823350366879766814784,
  675812443087109365824,
  675812443087109365824,
  821045086820506542144,
  821045086820506542144,
  673507163027849093184,
  673507163027849093184,
  823350366879766814784,
  823350366879766814784,
  675812443087109365824,
  675812443087109365824,
  821045086820506542144,
  821045086820506542144,
  673507163027849093184,
  673507163027849093184,
  823350366879766814784,
  823350366879766814784,
  675812443087109365824,
  675812443087109365824,
  823350366879766814784,
  823350366879766814784,
  675812443087109365824,
  675812443087109365824,
  821045086820506542144,
  821045086820506542144,
  673507163027849093184,
  673507163027849093184,
  823350366879766814784,
  823350366879766814784,
  675812443087109365824,
  675812443087109365824,
  821045086820506542144,
  821045086820506542144,
  673507163027849093184,
  673507163027849093184,
  823350366879766814784,
  823350366879766814784,
  823350366742361415744,
  823350366742361415744,
  823350366879766814784,
  823350366879766814784,
  823350366742361415744,
  823350366742361415744,
  675812443087109365824,
  675812443087109365824,
  675812443087109357634,
  675812443087109357634,
  675812443087109365824,
  675812443087109365824,
  675812442949703966784,
  675812442949703966784,
  675812443087109365824,
  675812443087109365824,
  675812443087109357634,
  675812443087109357634,
  675812443087108841664,
  675812443087108841664,
  675812443087108833474,
  675812443087108833474,
  675812443087109365824,
  675812443087109365824,
  675812443087109357634,
  675812443087109357634,
  675812443087109365824,
  675812443087109365824,
  675812443087109357634,
  675812443087109357634,
  675812443087108841664,
  675812443087108841664,
  675812443087108833474,
  675812443087108833474,
  823350366879766814784,
  823350366879766814784,
  823350366879766814784,
  823350366879766814784,
  823350366879766814784,
  823350366879766814784,
  823350366879766814784,
  823350366879766814784,
  823350366879766814784,
  823350366879766814784,
  673507163027849093184,
  673507163027849093184,
  823350366879766814784,
  823350366879766814784,
  823350366879766806594,
  823350366879766806594,
  823350366879766814784,
  823350366879766814784,
  823350366879766806594,
  823350366879766806594,
  823350366879766814784,
  823350366879766814784,
  823350366879766806594,
  823350366879766806594,
  673507163027849093184,
  673507163027849093184,
  673507163027849084994,
  673507163027849084994,
  823350366879766814784,
  823350366879766814784,
  823350366879766290624,
  823350366879766290624,
  823350366879766814784,
  823350366879766814784,
  821045086820506017984,
  821045086820506017984,
  823350366879766814784,
  823350366879766814784,
  823350366879766290624,
  823350366879766290624,
  673507163027849093184,
  673507163027849093184,
  673507163027848569024,
  673507163027848569024,
  823350366879766814784,
  823350366879766814784,
  823350366879766806594,
  823350366879766806594,
  823350366879766290624,
  823350366879766290624,
  823350366879766282434,
  823350366879766282434,
  673507163027849093184,
  673507163027849093184,
  673507163027849084994,
  673507163027849084994,
  673507163027848569024,
  673507163027848569024,
  673507163027848560834,
  673507163027848560834,
  823350366879766814784,
  823350366879766814784,
  823350366879766814784,
  823350366879766814784,
  823350366879766814784,
  823350366879766814784,
  823350366879766814784,
  823350366879766814784,
  823350366879766814784,
  823350366879766814784,
  673507163027849093184,
  673507163027849093184,
  823350366879766814784,
  823350366879766814784,
  823350366879766290624,
  823350366879766290624,
  823350366879766814784,
  823350366879766814784,
  821045086820506017984,
  821045086820506017984,
  823350366879766814784,
  823350366879766814784,
  823350366879766290624,
  823350366879766290624,
  673507163027849093184,
  673507163027849093184,
  673507163027848569024,
  673507163027848569024,
  821045086820506542144,
  821045086820506542144,
  673507163027849093184,
  673507163027849093184,
  675812443087109365824,
  675812443087109365824,
  673507163027849093184,
  673507163027849093184,
  673507163027848569024,
  673507163027848569024,
  675812443087109365824,
  675812443087109365824,
  675812443087108841664,
  675812443087108841664,
  675812443087109365824,
  675812443087109365824,
  821045086820506542144,
  821045086820506542144,
  675812443087109365824,
  675812443087109365824,
  823350366879766814784,
  823350366879766814784,
  673507163027849093184,
  673507163027849093184,
  675812443087109365824,
  675812443087109365824,
  675812443087108841664,
  675812443087108841664]
def ccdq_t4_aabbaabb_cert_7 : List Nat := [821045086820506542144,
  821045086820506542144,
  821045086820506017984,
  821045086820506017984,
  673507163027849093184,
  673507163027849093184,
  673507163027848569024,
  673507163027848569024,
  675812443087109365824,
  675812443087109365824,
  821045086820506542144,
  821045086820506542144,
  675812443087109365824,
  675812443087109365824,
  823350366879766814784,
  823350366879766814784,
  673507163027849093184,
  673507163027849093184,
  821045086820506542144,
  821045086820506542144,
  821045086683101143104,
  821045086683101143104,
  673507163027849093184,
  673507163027849093184,
  673507162890443694144,
  673507162890443694144,
  675812443087109365824,
  675812443087109365824,
  675812442949703966784,
  675812442949703966784,
  675812443087109365824,
  675812443087109365824,
  675812443087108841664,
  675812443087108841664,
  821045086820506542144,
  821045086820506542144,
  821045086820506017984,
  821045086820506017984,
  673507163027849093184,
  673507163027849093184,
  673507163027848569024,
  673507163027848569024,
  673507163027849093184,
  673507163027849093184,
  673507162890443694144,
  673507162890443694144,
  673507163027848569024,
  673507163027848569024,
  673507162890443169984,
  673507162890443169984,
  675812443087109365824,
  675812443087109365824,
  675812442949703966784,
  675812442949703966784,
  675812443087108841664,
  675812443087108841664,
  675812442949703442624,
  675812442949703442624,
  675812443087109365824,
  675812443087109365824,
  821045086820506542144,
  821045086820506542144,
  675812443087109365824,
  675812443087109365824,
  823350366879766814784,
  823350366879766814784,
  673507163027849093184,
  673507163027849093184,
  821045086820506542144,
  821045086820506542144,
  673507163027849093184,
  673507163027849093184,
  675812443087109365824,
  675812443087109365824,
  821045086820506542144,
  821045086820506542144,
  823350366879766814784,
  823350366879766814784,
  675812443087109365824,
  675812443087109365824,
  675812443087108841664,
  675812443087108841664,
  821045086820506542144,
  821045086820506542144,
  821045086820506017984,
  821045086820506017984,
  673507163027849093184,
  673507163027849093184,
  673507163027848569024,
  673507163027848569024,
  673507163027849093184,
  673507163027849093184,
  673507163027848569024,
  673507163027848569024,
  675812443087109365824,
  675812443087109365824,
  675812443087108841664,
  675812443087108841664,
  821045086820506542144,
  821045086820506542144,
  821045086820506017984,
  821045086820506017984,
  823350366879766814784,
  823350366879766814784,
  823350366879766290624,
  823350366879766290624,
  675812443087109365824,
  675812443087109365824,
  821045086820506542144,
  821045086820506542144,
  675812443087109365824,
  675812443087109365824,
  823350366879766814784,
  823350366879766814784,
  673507163027849093184,
  673507163027849093184,
  675812443087109365824,
  675812443087109365824,
  675812443087108841664,
  675812443087108841664,
  821045086820506542144,
  821045086820506542144,
  821045086820506017984,
  821045086820506017984,
  673507163027849093184,
  673507163027849093184,
  673507163027848569024,
  673507163027848569024,
  823350366879766814784,
  823350366879766814784,
  823350366742361415744,
  823350366742361415744,
  823350366879766814784,
  823350366879766814784,
  823350366742361415744,
  823350366742361415744,
  821045086820506542144,
  821045086820506542144,
  821045086683101143104,
  821045086683101143104,
  823350366879766814784,
  823350366879766814784,
  823350366742361415744,
  823350366742361415744,
  823350366879766290624,
  823350366879766290624,
  823350366742360891584,
  823350366742360891584,
  821045086820506542144,
  821045086820506542144,
  821045086683101143104,
  821045086683101143104,
  821045086820506017984,
  821045086820506017984,
  821045086683100618944,
  821045086683100618944,
  675812443087109365824,
  675812443087109365824,
  675812443087109357634,
  675812443087109357634,
  675812443087109365824,
  675812443087109365824,
  675812443087109357634,
  675812443087109357634,
  823350366879766814784,
  823350366879766814784,
  821045086820506542144,
  821045086820506542144,
  823350366879766814784,
  823350366879766814784,
  673507163027849093184,
  673507163027849093184,
  823350366879766814784,
  823350366879766814784,
  823350366879766806594,
  823350366879766806594,
  673507163027849093184,
  673507163027849093184,
  673507163027849084994,
  673507163027849084994,
  823350366879766814784,
  823350366879766814784,
  821045086820506542144,
  821045086820506542144,
  823350366879766814784,
  823350366879766814784,
  673507163027849093184,
  673507163027849093184,
  673507163027849093184,
  673507163027849093184,
  675812443087109365824,
  675812443087109365824,
  675812443087109365824,
  675812443087109365824,
  821045086820506542144,
  821045086820506542144,
  673507163027849093184,
  673507163027849093184,
  675812443087109365824,
  675812443087109365824,
  821045086820506542144,
  821045086820506542144,
  673507163027849093184,
  673507163027849093184,
  673507163027849093184,
  673507163027849093184,
  673507162890443694144,
  673507162890443694144,
  675812443087109365824,
  675812443087109365824,
  675812442949703966784,
  675812442949703966784,
  675812443087109365824,
  675812443087109365824,
  821045086820506542144,
  821045086820506542144,
  673507163027849093184,
  673507163027849093184,
  673507163027849093184,
  673507163027849093184,
  675812443087109365824,
  675812443087109365824,
  821045086820506542144,
  821045086820506542144,
  823350366879766814784,
  823350366879766814784,
  675812443087109365824,
  675812443087109365824,
  821045086820506542144,
  821045086820506542144,
  673507163027849093184,
  673507163027849093184,
  823350366879766814784,
  823350366879766814784,
  823350366742361415744,
  823350366742361415744,
  821045086820506542144,
  821045086820506542144,
  821045086683101143104,
  821045086683101143104,
  821045086820506542144,
  821045086820506542144,
  821045086820506533954,
  821045086820506533954,
  673507163027849093184,
  673507163027849093184,
  673507163027849084994,
  673507163027849084994,
  821045086820506542144,
  821045086820506542144,
  821045086820506533954,
  821045086820506533954,
  673507163027849093184,
  673507163027849093184,
  673507163027849084994,
  673507163027849084994,
  821045086820506542144,
  821045086820506542144,
  821045086820506542144,
  821045086820506542144,
  673507163027849093184,
  673507163027849093184,
  673507163027849084994,
  673507163027849084994,
  821045086820506542144,
  821045086820506542144,
  821045086820506542144,
  821045086820506542144,
  821045086820506542144,
  821045086820506542144,
  821045086820506542144,
  821045086820506542144,
  821045086820506542144,
  821045086820506542144,
  821045086820506542144,
  821045086820506542144,
  821045086683101143104,
  821045086683101143104,
  821045086820506542144,
  821045086820506542144,
  821045086820506542144,
  821045086820506542144,
  821045086820506542144,
  821045086820506542144,
  821045086820506542144,
  821045086820506542144,
  821045086820506542144,
  821045086820506542144]

/-- Check ccdq_t4_aabbaabb. C83 -/
theorem ccdq_t4_aabbaabb : isZeroSpin kinds [aᵥ, bᵥ, cᵥ, dᵥ, iₒ, jₒ, kₒ, lₒ] 4 [false, false, true, true, false, false, true, true]
    (Prog.outs [4, 5, 6, 7, 0, 1, 2, 3] (Prog.thin split_ccdq_t4 (Prog.ideal (ccdq_t4eqns_0))))
    (Prog.scale (-1) (Prog.ideal (ccdq_t4_aabbaabb)))
    (ccdq_t4_aabbaabb_cert_0 ++ (ccdq_t4_aabbaabb_cert_1 ++ (ccdq_t4_aabbaabb_cert_2 ++ (ccdq_t4_aabbaabb_cert_3 ++ (ccdq_t4_aabbaabb_cert_4 ++ (ccdq_t4_aabbaabb_cert_5 ++ (ccdq_t4_aabbaabb_cert_6 ++ (ccdq_t4_aabbaabb_cert_7)))))))) = true := by decide +kernel

end Verif.Cert
