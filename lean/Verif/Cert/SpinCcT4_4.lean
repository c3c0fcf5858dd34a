import Verif.Ein.Spin
import Verif.Cert.Thin
import Verif.Gen.SiCcdqT4_4

/-! Written by `/verif/tools/gen.py`. Checks of einsum programs. -/

set_option maxRecDepth 100000

namespace Verif.Cert

open Verif.Ein Verif.Ein.N


open Verif.Gen

def ccdq_t4_bbbbbbbb_cert_0 : List Nat := [2283003892736064,
  2283003892736064,
  2283003892727874,
  2283003892727874,
  2283003859173444,
  2283003825635394,
  2282866420219974,
  2282591609438274,
  823350366879766814784,
  823350366879766814784,
  675812443087109365824,
  675812443087109365824,
  823350366879766814784,
  823350366879766814784,
  823350366879766806594,
  823350366879766806594,
  675812443087109357634,
  675812443087109357634,
  823350366879766806594,
  823350366879766806594,
  823350366879733252164,
  823350366879699714114,
  675812443087075803204,
  675812443087042265154,
  823350366879733252164,
  823350366879699714114,
  823350366742294298694,
  823350366467483516994,
  675812442949636849734,
  675812442674826068034,
  823350366742294298694,
  823350366467483516994,
  162160790664388672,
  162160790664388672,
  162160790663864512,
  162160790663864512,
  162160788516380992,
  162160786369945792,
  162151992423358912,
  162134404533330112,
  823350366879766814784,
  823350366879766814784,
  821045086820506542144,
  821045086820506542144,
  823350366879766814784,
  823350366879766814784,
  823350366879766290624,
  823350366879766290624,
  821045086820506017984,
  821045086820506017984,
  823350366879766290624,
  823350366879766290624,
  823350366877618807104,
  823350366875472371904,
  821045086818358534464,
  821045086816212099264,
  823350366877618807104,
  823350366875472371904,
  823350358081525785024,
  823350340493635756224,
  821045078022265512384,
  821045060434375483584,
  823350358081525785024,
  823350340493635756224,
  823350366879766814784,
  823350366879766814784,
  823350366879733268544,
  823350366879733268544,
  823350366742294323264,
  823350366604922470464,
  823350366879766806594,
  823350366879766806594,
  823350366879733252164,
  823350366879699714114,
  823350366742294298694,
  823350366467483516994,
  823350366879699714114,
  823350366879733252164,
  823350366742260768834,
  823350366604922454084,
  823350366879699705924,
  823350366879699705924,
  823350366742260752454,
  823350366467483508804,
  823350366604821815364,
  823350366604821815364,
  823350366604821807174,
  823350366467416416324,
  823350366877619855424,
  823350366877619855424,
  823350366877586309184,
  823350366877586309184,
  823350366740147363904,
  823350366602775511104,
  823350366877619847234,
  823350366877619847234,
  823350366877586292804,
  823350366877552754754,
  823350366740147339334,
  823350366465336557634,
  823350366877552754754,
  823350366877586292804,
  823350366740113809474,
  823350366602775494724,
  823350366877552746564,
  823350366877552746564,
  823350366740113793094,
  823350366465336549444,
  823350366602674856004,
  823350366602674856004,
  823350366602674847814,
  823350366465269456964,
  823350358081527357504,
  823350349289728778304,
  823350358081493811264,
  823350349289695232064,
  823350357944054865984,
  823350349014884433984,
  823350358081527349314,
  823350349289728770114,
  823350358081493794884,
  823350349289661677634,
  823350357944054841414,
  823350348877445480514,
  823350358081460256834,
  823350349289695215684,
  823350357944021311554,
  823350349014884417604,
  823350358081460248644,
  823350349289661669444,
  823350357944021295174,
  823350348877445472324,
  823350357806582358084,
  823350349014783778884,
  823350357806582349894,
  823350348877378379844,
  821045086816212099264,
  821045086818358534464,
  821045086816178553024,
  821045086818324988224,
  821045086678739607744,
  821045086543514190144,
  821045086816212091074,
  821045086818358526274,
  821045086816178536644,
  821045086818291433794,
  821045086678739583174,
  821045086406075236674,
  821045086816144998594,
  821045086818324971844,
  821045086678706053314,
  821045086543514173764,
  821045086816144990404,
  821045086818291425604,
  821045086678706036934,
  821045086406075228484,
  821045086541267099844,
  821045086543413535044,
  821045086541267091654,
  821045086406008136004,
  821045078020119601344,
  821045069230467457344,
  821045078020086055104,
  821045069230433911104,
  821045077882647109824,
  821045068955623113024,
  821045078020119593154,
  821045069230467449154,
  821045078020086038724,
  821045069230400356674,
  821045077882647085254,
  821045068818184159554,
  821045078020052500674,
  821045069230433894724,
  821045077882613555394,
  821045068955623096644,
  821045078020052492484,
  821045069230400348484,
  821045077882613539014,
  821045068818184151364,
  821045077745174601924,
  821045068955522457924,
  821045077745174593734,
  821045068818117058884,
  821045069224026579264,
  821045069224026579264,
  821045069223993033024,
  821045069223993033024,
  821045069086554087744,
  821045068949182234944,
  821045069224026571074,
  821045069224026571074,
  821045069223993016644,
  821045069223959478594,
  821045069086554063174,
  821045068811743281474,
  821045069223959478594,
  821045069223993016644,
  821045069086520533314,
  821045068949182218564,
  821045069223959470404,
  821045069223959470404,
  821045069086520516934,
  821045068811743273284,
  821045068949081579844,
  821045068949081579844,
  821045068949081571654,
  821045068811676180804,
  11531498049961205824,
  11531498049961205824,
  11531498049927659584,
  11531498049927659584,
  11531497912488714304,
  11531497775116861504,
  11531498049961197634,
  11531498049961197634,
  11531498049927643204,
  11531498049894105154,
  11531497912488689734,
  11531497637677908034,
  11531498049894105154,
  11531498049927643204,
  11531497912455159874,
  11531497775116845124,
  11531498049894096964,
  11531498049894096964,
  11531497912455143494,
  11531497637677899844,
  11531497775016206404,
  11531497775016206404,
  11531497775016198214,
  11531497637610807364,
  11531498047814246464,
  11531498047814246464,
  11531498047780700224,
  11531498047780700224,
  11531497910341754944,
  11531497772969902144,
  11531498047814238274,
  11531498047814238274,
  11531498047780683844,
  11531498047747145794,
  11531497910341730374,
  11531497635530948674,
  11531498047747145794,
  11531498047780683844,
  11531497910308200514,
  11531497772969885764,
  11531498047747137604,
  11531498047747137604,
  11531497910308184134,
  11531497635530940484,
  11531497772869247044,
  11531497772869247044,
  11531497772869238854,
  11531497635463848004,
  11531489251721748544,
  11531480459923169344,
  11531489251688202304,
  11531480459889623104,
  11531489114249257024,
  11531480185078825024,
  11531489251721740354,
  11531480459923161154,
  11531489251688185924,
  11531480459856068674,
  11531489114249232454,
  11531480047639871554,
  11531489251654647874,
  11531480459889606724,
  11531489114215702594,
  11531480185078808644,
  11531489251654639684,
  11531480459856060484,
  11531489114215686214,
  11531480047639863364,
  11531488976776749124,
  11531480184978169924,
  11531488976776740934,
  11531480047572770884,
  9226217986406490304,
  9226217988552925504,
  9226217986372944064,
  9226217988519379264,
  9226217848933998784,
  9226217713708581184,
  9226217986406482114,
  9226217988552917314,
  9226217986372927684,
  9226217988485824834,
  9226217848933974214,
  9226217576269627714,
  9226217986339389634,
  9226217988519362884,
  9226217848900444354,
  9226217713708564804,
  9226217986339381444,
  9226217988485816644,
  9226217848900427974,
  9226217576269619524,
  9226217711461490884,
  9226217713607926084,
  9226217711461482694,
  9226217576202527044,
  9226209190313992384,
  9226200400661848384,
  9226209190280446144,
  9226200400628302144,
  9226209052841500864,
  9226200125817504064,
  9226209190313984194,
  9226200400661840194,
  9226209190280429764,
  9226200400594747714,
  9226209052841476294,
  9226199988378550594,
  9226209190246891714,
  9226200400628285764,
  9226209052807946434,
  9226200125817487684,
  9226209190246883524,
  9226200400594739524,
  9226209052807930054,
  9226199988378542404,
  9226208915368992964,
  9226200125716848964,
  9226208915368984774,
  9226199988311449924,
  9226200394220970304,
  9226200394220970304,
  9226200394187424064,
  9226200394187424064,
  9226200256748478784,
  9226200119376625984,
  9226200394220962114,
  9226200394220962114,
  9226200394187407684,
  9226200394153869634,
  9226200256748454214,
  9226199981937672514,
  9226200394153869634,
  9226200394187407684,
  9226200256714924354,
  9226200119376609604,
  9226200394153861444,
  9226200394153861444,
  9226200256714907974,
  9226199981937664324,
  9226200119275970884,
  9226200119275970884,
  9226200119275962694,
  9226199981870571844,
  673507163027849093184,
  673507163027849093184,
  821045086820506542144,
  821045086820506542144,
  673507162890443694144,
  673507162890443694144,
  821045086683101143104,
  821045086683101143104,
  673507162753004748864,
  673507162890376601664,
  821045086545662197824,
  821045086683034050624,
  673507163027849084994,
  673507163027849084994,
  821045086820506533954,
  821045086820506533954,
  673507162890443685954,
  673507162890443685954,
  821045086683101134914,
  821045086683101134914,
  673507163027815530564,
  673507163027781992514,
  821045086820472979524,
  821045086820439441474,
  673507162890376577094,
  673507162615565795394,
  821045086683034026054,
  821045086408223244354,
  673507162753004732484,
  673507162890343047234,
  821045086545662181444,
  821045086683000496194,
  673507162752971178054,
  673507162615532249154,
  821045086545628627014,
  821045086408189698114,
  673507162615565795394,
  673507162890376577094,
  821045086408223244354,
  821045086683034026054,
  673507162615565787204,
  673507162890343030854,
  821045086408223236164,
  821045086683000479814,
  673507162615532232774,
  673507162615532232774,
  821045086408189681734,
  821045086408189681734]
def ccdq_t4_bbbbbbbb_cert_1 : List Nat := [673507154233903554624,
  673507154233903554624,
  673507154233903554624,
  673507154233903554624,
  673507154096498155584,
  673507154096498155584,
  673507154096498155584,
  673507154096498155584,
  673507153959059210304,
  673507154096431063104,
  673507153959059210304,
  673507154096431063104,
  673507154233903546434,
  673507154233903546434,
  673507154233903546434,
  673507154233903546434,
  673507154096498147394,
  673507154096498147394,
  673507154096498147394,
  673507154096498147394,
  673507154233869992004,
  673507154233836453954,
  673507154233869992004,
  673507154233836453954,
  673507154096431038534,
  673507153821620256834,
  673507154096431038534,
  673507153821620256834,
  673507153959059193924,
  673507154096397508674,
  673507153959059193924,
  673507154096397508674,
  673507153959025639494,
  673507153821586710594,
  673507153959025639494,
  673507153821586710594,
  673507153821620256834,
  673507154096431038534,
  673507153821620256834,
  673507154096431038534,
  673507153821620248644,
  673507154096397492294,
  673507153821620248644,
  673507154096397492294,
  673507153821586694214,
  673507153821586694214,
  673507153821586694214,
  673507153821586694214,
  673507163025702133824,
  673507163025702133824,
  821045086818359582784,
  821045086818359582784,
  673507162888296734784,
  673507162888296734784,
  821045086680954183744,
  821045086680954183744,
  673507162750857789504,
  673507162888229642304,
  821045086543515238464,
  821045086680887091264,
  673507163025702125634,
  673507163025702125634,
  821045086818359574594,
  821045086818359574594,
  673507162888296726594,
  673507162888296726594,
  821045086680954175554,
  821045086680954175554,
  673507163025668571204,
  673507163025635033154,
  821045086818326020164,
  821045086818292482114,
  673507162888229617734,
  673507162613418836034,
  821045086680887066694,
  821045086406076284994,
  673507162750857773124,
  673507162888196087874,
  821045086543515222084,
  821045086680853536834,
  673507162750824218694,
  673507162613385289794,
  821045086543481667654,
  821045086406042738754,
  673507162613418836034,
  673507162888229617734,
  821045086406076284994,
  821045086680887066694,
  673507162613418827844,
  673507162888196071494,
  821045086406076276804,
  821045086680853520454,
  673507162613385273414,
  673507162613385273414,
  821045086406042722374,
  821045086406042722374,
  673507154229609635904,
  673507145437811056704,
  821045078022267084864,
  821045069230468505664,
  673507154092204236864,
  673507145300405657664,
  821045077884861685824,
  821045069093063106624,
  673507153954765291584,
  673507145300338565184,
  821045077747422740544,
  821045069092996014144,
  673507154229609627714,
  673507145437811048514,
  821045078022267076674,
  821045069230468497474,
  673507154092204228674,
  673507145300405649474,
  821045077884861677634,
  821045069093063098434,
  673507154229576073284,
  673507145437743956034,
  821045078022233522244,
  821045069230401404994,
  673507154092137119814,
  673507145025527758914,
  821045077884794568774,
  821045068818185207874,
  673507153954765275204,
  673507145300305010754,
  821045077747422724164,
  821045069092962459714,
  673507153954731720774,
  673507145025494212674,
  821045077747389169734,
  821045068818151661634,
  673507153817326338114,
  673507145300338540614,
  821045077609983787074,
  821045069092995989574,
  673507153817326329924,
  673507145300304994374,
  821045077609983778884,
  821045069092962443334,
  673507153817292775494,
  673507145025494196294,
  821045077609950224454,
  821045068818151645254,
  673507145437811056704,
  673507154229609635904,
  673507145437811056704,
  673507154229609635904,
  673507145300405657664,
  673507154092204236864,
  673507145300405657664,
  673507154092204236864,
  673507145162966712384,
  673507154092137144384,
  673507145162966712384,
  673507154092137144384,
  673507145437811048514,
  673507154229609627714,
  673507145437811048514,
  673507154229609627714,
  673507145300405649474,
  673507154092204228674,
  673507145300405649474,
  673507154092204228674,
  673507145437777494084,
  673507154229542535234,
  673507145437777494084,
  673507154229542535234,
  673507145300338540614,
  673507153817326338114,
  673507145300338540614,
  673507153817326338114,
  673507145162966696004,
  673507154092103589954,
  673507145162966696004,
  673507154092103589954,
  673507145162933141574,
  673507153817292791874,
  673507145162933141574,
  673507153817292791874,
  673507145025527758914,
  673507154092137119814,
  673507145025527758914,
  673507154092137119814,
  673507145025527750724,
  673507154092103573574,
  673507145025527750724,
  673507154092103573574,
  673507145025494196294,
  673507153817292775494,
  673507145025494196294,
  673507153817292775494,
  673507145435664097344,
  673507145435664097344,
  673507145435664097344,
  673507145435664097344,
  673507145298258698304,
  673507145298258698304,
  673507145298258698304,
  673507145298258698304,
  673507145160819753024,
  673507145298191605824,
  673507145160819753024,
  673507145298191605824,
  673507145435664089154,
  673507145435664089154,
  673507145435664089154,
  673507145435664089154,
  673507145298258690114,
  673507145298258690114,
  673507145298258690114,
  673507145298258690114,
  673507145435630534724,
  673507145435596996674,
  673507145435630534724,
  673507145435596996674,
  673507145298191581254,
  673507145023380799554,
  673507145298191581254,
  673507145023380799554,
  673507145160819736644,
  673507145298158051394,
  673507145160819736644,
  673507145298158051394,
  673507145160786182214,
  673507145023347253314,
  673507145160786182214,
  673507145023347253314,
  673507145023380799554,
  673507145298191581254,
  673507145023380799554,
  673507145298191581254,
  673507145023380791364,
  673507145298158035014,
  673507145023380791364,
  673507145298158035014,
  673507145023347236934,
  673507145023347236934,
  673507145023347236934,
  673507145023347236934,
  673507163023554650304,
  673507163025701085504,
  821045086816212099264,
  821045086818358534464,
  673507162886149251264,
  673507162888295686464,
  821045086678806700224,
  821045086680953135424,
  673507162748710305984,
  673507162888228593984,
  821045086541367754944,
  821045086680886042944,
  673507163023554642114,
  673507163025701077314,
  821045086816212091074,
  821045086818358526274,
  673507162886149243074,
  673507162888295678274,
  821045086678806692034,
  821045086680953127234,
  673507163023521087684,
  673507163025633984834,
  821045086816178536644,
  821045086818291433794,
  673507162886082134214,
  673507162613417787714,
  821045086678739583174,
  821045086406075236674,
  673507162748710289604,
  673507162888195039554,
  821045086541367738564,
  821045086680852488514,
  673507162748676735174,
  673507162613384241474,
  821045086541334184134,
  821045086406041690434,
  673507162611271352514,
  673507162888228569414,
  821045086403928801474,
  821045086680886018374,
  673507162611271344324,
  673507162888195023174,
  821045086403928793284,
  821045086680852472134,
  673507162611237789894,
  673507162613384225094,
  821045086403895238854,
  821045086406041674054,
  673507154227462152384,
  673507145437810008384,
  821045078020119601344,
  821045069230467457344,
  673507154090056753344,
  673507145300404609344,
  821045077882714202304,
  821045069093062058304,
  673507153952617808064,
  673507145300337516864,
  821045077745275257024,
  821045069092994965824,
  673507154227462144194,
  673507145437810000194,
  821045078020119593154,
  821045069230467449154,
  673507154090056745154,
  673507145300404601154,
  821045077882714194114,
  821045069093062050114,
  673507154227428589764,
  673507145437742907714,
  821045078020086038724,
  821045069230400356674,
  673507154089989636294,
  673507145025526710594,
  821045077882647085254,
  821045068818184159554,
  673507153952617791684,
  673507145300303962434,
  821045077745275240644,
  821045069092961411394,
  673507153952584237254,
  673507145025493164354,
  821045077745241686214,
  821045068818150613314,
  673507153815178854594,
  673507145300337492294,
  821045077607836303554,
  821045069092994941254,
  673507153815178846404,
  673507145300303946054,
  821045077607836295364,
  821045069092961395014,
  673507153815145291974,
  673507145025493147974,
  821045077607802740934,
  821045068818150596934,
  673507145431369130304,
  673507145431369130304,
  821045069224026579264,
  821045069224026579264,
  673507145293963731264,
  673507145293963731264,
  821045069086621180224,
  821045069086621180224,
  673507145156524785984,
  673507145293896638784,
  821045068949182234944,
  821045069086554087744,
  673507145431369122114,
  673507145431369122114,
  821045069224026571074,
  821045069224026571074,
  673507145293963723074,
  673507145293963723074,
  821045069086621172034,
  821045069086621172034,
  673507145431335567684,
  673507145431302029634,
  821045069223993016644,
  821045069223959478594,
  673507145293896614214,
  673507145019085832514,
  821045069086554063174,
  821045068811743281474,
  673507145156524769604,
  673507145293863084354,
  821045068949182218564,
  821045069086520533314,
  673507145156491215174,
  673507145019052286274,
  821045068949148664134,
  821045068811709735234,
  673507145019085832514,
  673507145293896614214,
  821045068811743281474,
  821045069086554063174,
  673507145019085824324,
  673507145293863067974,
  821045068811743273284,
  821045069086520516934,
  673507145019052269894,
  673507145019052269894,
  821045068811709718854,
  821045068811709718854,
  673507136641718034624,
  673507154229608063424,
  673507136641718034624,
  673507154229608063424,
  673507136504312635584,
  673507154092202664384,
  673507136504312635584,
  673507154092202664384,
  673507136366873690304,
  673507154092135571904,
  673507136366873690304,
  673507154092135571904,
  673507136641718026434,
  673507154229608055234,
  673507136641718026434,
  673507154229608055234]
def ccdq_t4_bbbbbbbb_cert_2 : List Nat := [673507136504312627394,
  673507154092202656194,
  673507136504312627394,
  673507154092202656194,
  673507136641684472004,
  673507154229540962754,
  673507136641684472004,
  673507154229540962754,
  673507136504245518534,
  673507153817324765634,
  673507136504245518534,
  673507153817324765634,
  673507136366873673924,
  673507154092102017474,
  673507136366873673924,
  673507154092102017474,
  673507136366840119494,
  673507153817291219394,
  673507136366840119494,
  673507153817291219394,
  673507136229434736834,
  673507154092135547334,
  673507136229434736834,
  673507154092135547334,
  673507136229434728644,
  673507154092102001094,
  673507136229434728644,
  673507154092102001094,
  673507136229401174214,
  673507153817291203014,
  673507136229401174214,
  673507153817291203014,
  673507136639571075264,
  673507145435662524864,
  673507136639571075264,
  673507145435662524864,
  673507136502165676224,
  673507145298257125824,
  673507136502165676224,
  673507145298257125824,
  673507136364726730944,
  673507145298190033344,
  673507136364726730944,
  673507145298190033344,
  673507136639571067074,
  673507145435662516674,
  673507136639571067074,
  673507145435662516674,
  673507136502165668034,
  673507145298257117634,
  673507136502165668034,
  673507145298257117634,
  673507136639537512644,
  673507145435595424194,
  673507136639537512644,
  673507145435595424194,
  673507136502098559174,
  673507145023379227074,
  673507136502098559174,
  673507145023379227074,
  673507136364726714564,
  673507145298156478914,
  673507136364726714564,
  673507145298156478914,
  673507136364693160134,
  673507145023345680834,
  673507136364693160134,
  673507145023345680834,
  673507136227287777474,
  673507145298190008774,
  673507136227287777474,
  673507145298190008774,
  673507136227287769284,
  673507145298156462534,
  673507136227287769284,
  673507145298156462534,
  673507136227254214854,
  673507145023345664454,
  673507136227254214854,
  673507145023345664454,
  673507136637423591744,
  673507145431368606144,
  673507136637423591744,
  673507145431368606144,
  673507136500018192704,
  673507145293963207104,
  673507136500018192704,
  673507145293963207104,
  673507136362579247424,
  673507145293896114624,
  673507136362579247424,
  673507145293896114624,
  673507136637423583554,
  673507145431368597954,
  673507136637423583554,
  673507145431368597954,
  673507136500018184514,
  673507145293963198914,
  673507136500018184514,
  673507145293963198914,
  673507136637390029124,
  673507145431301505474,
  673507136637390029124,
  673507145431301505474,
  673507136499951075654,
  673507145019085308354,
  673507136499951075654,
  673507145019085308354,
  673507136362579231044,
  673507145293862560194,
  673507136362579231044,
  673507145293862560194,
  673507136362545676614,
  673507145019051762114,
  673507136362545676614,
  673507145019051762114,
  673507136225140293954,
  673507145293896090054,
  673507136225140293954,
  673507145293896090054,
  673507136225140285764,
  673507145293862543814,
  673507136225140285764,
  673507145293862543814,
  673507136225106731334,
  673507145019051745734,
  673507136225106731334,
  673507145019051745734,
  164412590478073920,
  164412590478073920,
  164412453072674880,
  164412453072674880,
  164412315633729600,
  164412453005582400,
  164412590478065730,
  164412590478065730,
  164412453072666690,
  164412453072666690,
  164412590444511300,
  164412590410973250,
  164412453005557830,
  164412178194776130,
  164412315633713220,
  164412452972027970,
  164412315600158790,
  164412178161229890,
  164412178194776130,
  164412453005557830,
  164412178194767940,
  164412452972011590,
  164412178161213510,
  164412178161213510,
  164403796532535360,
  164403796532535360,
  164403659127136320,
  164403659127136320,
  164403521688191040,
  164403659060043840,
  164403796532527170,
  164403796532527170,
  164403659127128130,
  164403659127128130,
  164403796498972740,
  164403796465434690,
  164403659060019270,
  164403384249237570,
  164403521688174660,
  164403659026489410,
  164403521654620230,
  164403384215691330,
  164403384249237570,
  164403659060019270,
  164403384249229380,
  164403659026473030,
  164403384215674950,
  164403384215674950,
  164412588331114560,
  164412588331114560,
  164412450925715520,
  164412450925715520,
  164412313486770240,
  164412450858623040,
  164412588331106370,
  164412588331106370,
  164412450925707330,
  164412450925707330,
  164412588297551940,
  164412588264013890,
  164412450858598470,
  164412176047816770,
  164412313486753860,
  164412450825068610,
  164412313453199430,
  164412176014270530,
  164412176047816770,
  164412450858598470,
  164412176047808580,
  164412450825052230,
  164412176014254150,
  164412176014254150,
  164403792238616640,
  164395000440037440,
  164403654833217600,
  164394863034638400,
  164403517394272320,
  164394862967545920,
  164403792238608450,
  164395000440029250,
  164403654833209410,
  164394863034630210,
  164403792205054020,
  164395000372936770,
  164403654766100550,
  164394588156739650,
  164403517394255940,
  164394862933991490,
  164403517360701510,
  164394588123193410,
  164403379955318850,
  164394862967521350,
  164403379955310660,
  164394862933975110,
  164403379921756230,
  164394588123177030,
  164395000440037440,
  164403792238616640,
  164394863034638400,
  164403654833217600,
  164394725595693120,
  164403654766125120,
  164395000440029250,
  164403792238608450,
  164394863034630210,
  164403654833209410,
  164395000406474820,
  164403792171515970,
  164394862967521350,
  164403379955318850,
  164394725595676740,
  164403654732570690,
  164394725562122310,
  164403379921772610,
  164394588156739650,
  164403654766100550,
  164394588156731460,
  164403654732554310,
  164394588123177030,
  164403379921756230,
  164394998293078080,
  164394998293078080,
  164394860887679040,
  164394860887679040,
  164394723448733760,
  164394860820586560,
  164394998293069890,
  164394998293069890,
  164394860887670850,
  164394860887670850,
  164394998259515460,
  164394998225977410,
  164394860820561990,
  164394586009780290,
  164394723448717380,
  164394860787032130,
  164394723415162950,
  164394585976234050,
  164394586009780290,
  164394860820561990,
  164394586009772100,
  164394860787015750,
  164394585976217670,
  164394585976217670,
  164412586183631040,
  164412588330066240,
  164412448778232000,
  164412450924667200,
  164412311339286720,
  164412450857574720,
  164412586183622850,
  164412588330058050,
  164412448778223810,
  164412450924659010,
  164412586150068420,
  164412588262965570,
  164412448711114950,
  164412176046768450,
  164412311339270340,
  164412450824020290,
  164412311305715910,
  164412176013222210,
  164412173900333250,
  164412450857550150,
  164412173900325060,
  164412450824003910,
  164412173866770630,
  164412176013205830,
  164403790091133120,
  164395000438989120,
  164403652685734080,
  164394863033590080,
  164403515246788800,
  164394862966497600,
  164403790091124930,
  164395000438980930,
  164403652685725890,
  164394863033581890,
  164403790057570500,
  164395000371888450,
  164403652618617030,
  164394588155691330,
  164403515246772420,
  164394862932943170,
  164403515213217990,
  164394588122145090,
  164403377807835330,
  164394862966473030,
  164403377807827140,
  164394862932926790,
  164403377774272710,
  164394588122128710,
  164394993998111040,
  164394993998111040,
  164394856592712000,
  164394856592712000,
  164394719153766720,
  164394856525619520,
  164394993998102850,
  164394993998102850,
  164394856592703810,
  164394856592703810,
  164394993964548420,
  164394993931010370,
  164394856525594950,
  164394581714813250,
  164394719153750340,
  164394856492065090,
  164394719120195910,
  164394581681267010,
  164394581714813250,
  164394856525594950,
  164394581714805060,
  164394856492048710,
  164394581681250630,
  164394581681250630,
  164386204347015360,
  164403792237044160,
  164386066941616320,
  164403654831645120,
  164385929502671040,
  164403654764552640,
  164386204347007170,
  164403792237035970,
  164386066941608130,
  164403654831636930,
  164386204313452740,
  164403792169943490,
  164386066874499270,
  164403379953746370,
  164385929502654660,
  164403654730998210,
  164385929469100230,
  164403379920200130,
  164385792063717570,
  164403654764528070,
  164385792063709380,
  164403654730981830,
  164385792030154950,
  164403379920183750,
  164386202200056000,
  164394998291505600,
  164386064794656960,
  164394860886106560,
  164385927355711680,
  164394860819014080,
  164386202200047810,
  164394998291497410,
  164386064794648770,
  164394860886098370,
  164386202166493380,
  164394998224404930,
  164386064727539910,
  164394586008207810,
  164385927355695300,
  164394860785459650,
  164385927322140870,
  164394585974661570,
  164385789916758210,
  164394860818989510,
  164385789916750020,
  164394860785443270,
  164385789883195590,
  164394585974645190,
  164386200052572480,
  164394993997586880,
  164386062647173440,
  164394856592187840,
  164385925208228160,
  164394856525095360,
  164386200052564290,
  164394993997578690]
def ccdq_t4_bbbbbbbb_cert_3 : List Nat := [164386062647165250,
  164394856592179650,
  164386200019009860,
  164394993930486210,
  164386062580056390,
  164394581714289090,
  164385925208211780,
  164394856491540930,
  164385925174657350,
  164394581680742850,
  164385787769274690,
  164394856525070790,
  164385787769266500,
  164394856491524550,
  164385787735712070,
  164394581680726470,
  821045086820506542144,
  821045086820506542144,
  673507163027849093184,
  673507163027849093184,
  823350366879766814784,
  823350366879766814784,
  821045086820506533954,
  821045086820506533954,
  673507163027849084994,
  673507163027849084994,
  823350366879766806594,
  823350366879766806594,
  821045086820472979524,
  821045086820439441474,
  673507163027815530564,
  673507163027781992514,
  823350366879733252164,
  823350366879699714114,
  821045086683034026054,
  821045086408223244354,
  673507162890376577094,
  673507162615565795394,
  823350366742294298694,
  823350366467483516994,
  821045086818359582784,
  821045086818359582784,
  673507163025702133824,
  673507163025702133824,
  823350366877619855424,
  823350366877619855424,
  821045086818359574594,
  821045086818359574594,
  673507163025702125634,
  673507163025702125634,
  823350366877619847234,
  823350366877619847234,
  821045086818326020164,
  821045086818292482114,
  673507163025668571204,
  673507163025635033154,
  823350366877586292804,
  823350366877552754754,
  821045086680887066694,
  821045086406076284994,
  673507162888229617734,
  673507162613418836034,
  823350366740147339334,
  823350366465336557634,
  821045078022267084864,
  821045069230468505664,
  673507154229609635904,
  673507145437811056704,
  823350358081527357504,
  823350349289728778304,
  821045078022267076674,
  821045069230468497474,
  673507154229609627714,
  673507145437811048514,
  823350358081527349314,
  823350349289728770114,
  821045078022233522244,
  821045069230401404994,
  673507154229576073284,
  673507145437743956034,
  823350358081493794884,
  823350349289661677634,
  821045077884794568774,
  821045068818185207874,
  673507154092137119814,
  673507145025527758914,
  823350357944054841414,
  823350348877445480514,
  821045086816212099264,
  821045086818358534464,
  673507163023554650304,
  673507163025701085504,
  823350366875472371904,
  823350366877618807104,
  821045086816212091074,
  821045086818358526274,
  673507163023554642114,
  673507163025701077314,
  823350366875472363714,
  823350366877618798914,
  821045086816178536644,
  821045086818291433794,
  673507163023521087684,
  673507163025633984834,
  823350366875438809284,
  823350366877551706434,
  821045086678739583174,
  821045086406075236674,
  673507162886082134214,
  673507162613417787714,
  823350366737999855814,
  823350366465335509314,
  821045078020119601344,
  821045069230467457344,
  673507154227462152384,
  673507145437810008384,
  823350358079379873984,
  823350349289727729984,
  821045078020119593154,
  821045069230467449154,
  673507154227462144194,
  673507145437810000194,
  823350358079379865794,
  823350349289727721794,
  821045078020086038724,
  821045069230400356674,
  673507154227428589764,
  673507145437742907714,
  823350358079346311364,
  823350349289660629314,
  821045077882647085254,
  821045068818184159554,
  673507154089989636294,
  673507145025526710594,
  823350357941907357894,
  823350348877444432194,
  821045069224026579264,
  821045069224026579264,
  673507145431369130304,
  673507145431369130304,
  823350349283286851904,
  823350349283286851904,
  821045069224026571074,
  821045069224026571074,
  673507145431369122114,
  673507145431369122114,
  823350349283286843714,
  823350349283286843714,
  821045069223993016644,
  821045069223959478594,
  673507145431335567684,
  673507145431302029634,
  823350349283253289284,
  823350349283219751234,
  821045069086554063174,
  821045068811743281474,
  673507145293896614214,
  673507145019085832514,
  823350349145814335814,
  823350348871003554114,
  823350366879766814784,
  823350366879766814784,
  823350366879733268544,
  823350366879733268544,
  823350366742294323264,
  823350366604922470464,
  823350366879699714114,
  823350366879733252164,
  823350366742260768834,
  823350366604922454084,
  823350366604821815364,
  823350366604821815364,
  675812434293163827264,
  675812434293163827264,
  675812434293130281024,
  675812434293130281024,
  675812434155691335744,
  675812434018319482944,
  675812434293096726594,
  675812434293130264644,
  675812434155657781314,
  675812434018319466564,
  675812434018218827844,
  675812434018218827844,
  823350366877619855424,
  823350366877619855424,
  823350366877586309184,
  823350366877586309184,
  823350366740147363904,
  823350366602775511104,
  823350366877552754754,
  823350366877586292804,
  823350366740113809474,
  823350366602775494724,
  823350366602674856004,
  823350366602674856004,
  823350358081527357504,
  823350349289728778304,
  823350358081493811264,
  823350349289695232064,
  823350357944054865984,
  823350349014884433984,
  823350358081460256834,
  823350349289695215684,
  823350357944021311554,
  823350349014884417604,
  823350357806582358084,
  823350349014783778884,
  675812425497071329344,
  675812434288869908544,
  675812425497037783104,
  675812434288836362304,
  675812425359598837824,
  675812434014025564224,
  675812425497004228674,
  675812434288836345924,
  675812425359565283394,
  675812434014025547844,
  675812425222126329924,
  675812434013924909124,
  675812425494924369984,
  675812425494924369984,
  675812425494890823744,
  675812425494890823744,
  675812425357451878464,
  675812425220080025664,
  675812425494857269314,
  675812425494890807364,
  675812425357418324034,
  675812425220080009284,
  675812425219979370564,
  675812425219979370564,
  823350366875472371904,
  823350366877618807104,
  823350366875438825664,
  823350366877585260864,
  823350366737999880384,
  823350366602774462784,
  823350366875405271234,
  823350366877585244484,
  823350366737966325954,
  823350366602774446404,
  823350366600527372484,
  823350366602673807684,
  823350358079379873984,
  823350349289727729984,
  823350358079346327744,
  823350349289694183744,
  823350357941907382464,
  823350349014883385664,
  823350358079312773314,
  823350349289694167364,
  823350357941873828034,
  823350349014883369284,
  823350357804434874564,
  823350349014782730564,
  823350349283286851904,
  823350349283286851904,
  823350349283253305664,
  823350349283253305664,
  823350349145814360384,
  823350349008442507584,
  823350349283219751234,
  823350349283253289284,
  823350349145780805954,
  823350349008442491204,
  823350349008341852484,
  823350349008341852484,
  675812416700978307264,
  675812434288868336064,
  675812416700944761024,
  675812434288834789824,
  675812416563505815744,
  675812434014023991744,
  675812416700911206594,
  675812434288834773444,
  675812416563472261314,
  675812434014023975364,
  675812416426033307844,
  675812434013923336644,
  675812416698831347904,
  675812425494922797504,
  675812416698797801664,
  675812425494889251264,
  675812416561358856384,
  675812425220078453184,
  675812416698764247234,
  675812425494889234884,
  675812416561325301954,
  675812425220078436804,
  675812416423886348484,
  675812425219977798084,
  675812416696683864384,
  675812425490628878784,
  675812416696650318144,
  675812425490595332544,
  675812416559211372864,
  675812425215784534464,
  675812416696616763714,
  675812425490595316164,
  675812416559177818434,
  675812425215784518084,
  675812416421738864964,
  675812425215683879364,
  823350366879766814784,
  823350366879766814784,
  823350366877619855424,
  823350366877619855424,
  823350358081527357504,
  823350349289728778304,
  823350366875472371904,
  823350366877618807104,
  823350358079379873984,
  823350349289727729984,
  823350349283286851904,
  823350349283286851904,
  811818900033884659776,
  811818900033884659776,
  811818900031737700416,
  811818900031737700416,
  811818891235645202496,
  811818882443846623296,
  811818900029590216896,
  811818900031736652096,
  811818891233497718976,
  811818882443845574976,
  811818882437404696896,
  811818882437404696896,
  811818900033884659776,
  811818900033884659776,
  811818900033851113536,
  811818900033851113536,
  811818899896412168256,
  811818899759040315456,
  811818900033817559106,
  811818900033851097156,
  811818899896378613826,
  811818899759040299076,
  811818899758939660356,
  811818899758939660356,
  811818900031737700416,
  811818900031737700416,
  811818900031704154176,
  811818900031704154176,
  811818899894265208896,
  811818899756893356096,
  811818900031670599746,
  811818900031704137796,
  811818899894231654466,
  811818899756893339716,
  811818899756792700996,
  811818899756792700996,
  811818891235645202496,
  811818882443846623296,
  811818891235611656256,
  811818882443813077056,
  811818891098172710976,
  811818882169002278976,
  811818891235578101826,
  811818882443813060676,
  811818891098139156546,
  811818882169002262596,
  811818890960700203076,
  811818882168901623876,
  664280976241226686656,
  664280976241226686656,
  664280976241193140416,
  664280976241193140416,
  664280976103754195136,
  664280975966382342336,
  664280976241159585986,
  664280976241193124036,
  664280976103720640706,
  664280975966382325956,
  664280975966281687236,
  664280975966281687236,
  664280976239079203136,
  664280976236932767936,
  664280976239045656896,
  664280976236899221696,
  664280976101606711616,
  664280975962088423616,
  664280976239012102466,
  664280976236899205316,
  664280976101573157186,
  664280975962088407236,
  664280975964134203716,
  664280975961987768516,
  664280967442986181056,
  664280949855096152256,
  664280967442952634816,
  664280949855062606016,
  664280967305513689536,
  664280949580251807936,
  664280967442919080386,
  664280949855062589636,
  664280967305480135106,
  664280949580251791556,
  664280967168041181636,
  664280949580151152836]
def ccdq_t4_bbbbbbbb_cert_4 : List Nat := [811818900029590216896,
  811818900031736652096,
  811818900029556670656,
  811818900031703105856,
  811818899892117725376,
  811818899756892307776,
  811818900029523116226,
  811818900031703089476,
  811818899892084170946,
  811818899756892291396,
  811818899754645217476,
  811818899756791652676,
  811818891233497718976,
  811818882443845574976,
  811818891233464172736,
  811818882443812028736,
  811818891096025227456,
  811818882169001230656,
  811818891233430618306,
  811818882443812012356,
  811818891095991673026,
  811818882169001214276,
  811818890958552719556,
  811818882168900575556,
  664280976236932243776,
  664280976236932243776,
  664280976236898697536,
  664280976236898697536,
  664280976099459752256,
  664280975962087899456,
  664280976236865143106,
  664280976236898681156,
  664280976099426197826,
  664280975962087883076,
  664280975961987244356,
  664280975961987244356,
  664280967440839221696,
  664280949855095628096,
  664280967440805675456,
  664280949855062081856,
  664280967303366730176,
  664280949580251283776,
  664280967440772121026,
  664280949855062065476,
  664280967303333175746,
  664280949580251267396,
  664280967165894222276,
  664280949580150628676,
  811818882437404696896,
  811818882437404696896,
  811818882437371150656,
  811818882437371150656,
  811818882299932205376,
  811818882162560352576,
  811818882437337596226,
  811818882437371134276,
  811818882299898650946,
  811818882162560336196,
  811818882162459697476,
  811818882162459697476,
  664280958644746723776,
  664280949850801709376,
  664280958644713177536,
  664280949850768163136,
  664280958507274232256,
  664280949575957365056,
  664280958644679623106,
  664280949850768146756,
  664280958507240677826,
  664280949575957348676,
  664280958369801724356,
  664280949575856709956,
  675812443087109365824,
  675812443087109365824,
  673507163027849093184,
  673507163027849093184,
  823350366879766814784,
  823350366879766814784,
  675812443087075819584,
  675812443087075819584,
  673507163027815546944,
  673507163027815546944,
  823350366879733268544,
  823350366879733268544,
  675812442949636874304,
  675812442812265021504,
  673507162890376601664,
  673507162753004748864,
  823350366742294323264,
  823350366604922470464,
  675812443087042265154,
  675812443087075803204,
  673507163027781992514,
  673507163027815530564,
  823350366879699714114,
  823350366879733252164,
  675812442949603319874,
  675812442812265005124,
  673507162890343047234,
  673507162753004732484,
  823350366742260768834,
  823350366604922454084,
  675812442812164366404,
  675812442812164366404,
  673507162752904093764,
  673507162752904093764,
  823350366604821815364,
  823350366604821815364,
  675812443087108841664,
  675812443087108841664,
  673507163027848569024,
  673507163027848569024,
  823350366879766290624,
  823350366879766290624,
  675812443087075295424,
  675812443087075295424,
  673507163027815022784,
  673507163027815022784,
  823350366879732744384,
  823350366879732744384,
  675812442949636350144,
  675812442812264497344,
  673507162890376077504,
  673507162753004224704,
  823350366742293799104,
  823350366604921946304,
  675812443087041740994,
  675812443087075279044,
  673507163027781468354,
  673507163027815006404,
  823350366879699189954,
  823350366879732728004,
  675812442949602795714,
  675812442812264480964,
  673507162890342523074,
  673507162753004208324,
  823350366742260244674,
  823350366604921929924,
  675812442812163842244,
  675812442812163842244,
  673507162752903569604,
  673507162752903569604,
  823350366604821291204,
  823350366604821291204,
  675812443084961358144,
  675812443082814922944,
  673507163025701085504,
  673507163023554650304,
  823350366877618807104,
  823350366875472371904,
  675812443084927811904,
  675812443082781376704,
  673507163025667539264,
  673507163023521104064,
  823350366877585260864,
  823350366875438825664,
  675812442947488866624,
  675812442807970578624,
  673507162888228593984,
  673507162748710305984,
  823350366740146315584,
  823350366600628027584,
  675812443084894257474,
  675812443082781360324,
  673507163025633984834,
  673507163023521087684,
  823350366877551706434,
  823350366875438809284,
  675812442947455312194,
  675812442807970562244,
  673507162888195039554,
  673507162748710289604,
  823350366740112761154,
  823350366600628011204,
  675812442810016358724,
  675812442807869923524,
  673507162750756086084,
  673507162748609650884,
  823350366602673807684,
  823350366600527372484,
  675812434288868336064,
  675812416700978307264,
  673507154229608063424,
  673507136641718034624,
  823350358081525785024,
  823350340493635756224,
  675812434288834789824,
  675812416700944761024,
  673507154229574517184,
  673507136641684488384,
  823350358081492238784,
  823350340493602209984,
  675812434151395844544,
  675812416426133962944,
  673507154092135571904,
  673507136366873690304,
  823350357944053293504,
  823350340218791411904,
  675812434288801235394,
  675812416700944744644,
  673507154229540962754,
  673507136641684472004,
  823350358081458684354,
  823350340493602193604,
  675812434151362290114,
  675812416426133946564,
  673507154092102017474,
  673507136366873673924,
  823350357944019739074,
  823350340218791395524,
  675812434013923336644,
  675812416426033307844,
  673507153954663064004,
  673507136366773035204,
  823350357806580785604,
  823350340218690756804,
  823350366879766814784,
  823350366879766814784,
  823350366879766814784,
  823350366879766814784,
  673507163027849093184,
  673507163027849093184,
  823350366879766814784,
  823350366879766814784,
  823350366879766806594,
  823350366879766806594,
  823350366879766806594,
  823350366879766806594,
  673507163027849084994,
  673507163027849084994,
  823350366879766806594,
  823350366879766806594,
  823350366879733252164,
  823350366879699714114,
  823350366879733252164,
  823350366879699714114,
  673507163027815530564,
  673507163027781992514,
  823350366879733252164,
  823350366879699714114,
  823350366742294298694,
  823350366467483516994,
  823350366742294298694,
  823350366467483516994,
  673507162890376577094,
  673507162615565795394,
  823350366742294298694,
  823350366467483516994,
  823350366879766290624,
  823350366879766290624,
  823350366879766290624,
  823350366879766290624,
  673507163027848569024,
  673507163027848569024,
  823350366879766290624,
  823350366879766290624,
  823350366879766282434,
  823350366879766282434,
  823350366879766282434,
  823350366879766282434,
  673507163027848560834,
  673507163027848560834,
  823350366879766282434,
  823350366879766282434,
  823350366879732728004,
  823350366879699189954,
  823350366879732728004,
  823350366879699189954,
  673507163027815006404,
  673507163027781468354,
  823350366879732728004,
  823350366879699189954,
  823350366742293774534,
  823350366467482992834,
  823350366742293774534,
  823350366467482992834,
  673507162890376052934,
  673507162615565271234,
  823350366742293774534,
  823350366467482992834,
  823350366877618807104,
  823350366875472371904,
  823350366877618807104,
  823350366875472371904,
  673507163025701085504,
  673507163023554650304,
  823350366877618807104,
  823350366875472371904,
  823350366877618798914,
  823350366875472363714,
  823350366877618798914,
  823350366875472363714,
  673507163025701077314,
  673507163023554642114,
  823350366877618798914,
  823350366875472363714,
  823350366877585244484,
  823350366875405271234,
  823350366877585244484,
  823350366875405271234,
  673507163025667522884,
  673507163023487549634,
  823350366877585244484,
  823350366875405271234,
  823350366740146291014,
  823350366463189074114,
  823350366740146291014,
  823350366463189074114,
  673507162888228569414,
  673507162611271352514,
  823350366740146291014,
  823350366463189074114,
  823350358081525785024,
  823350340493635756224,
  823350358081525785024,
  823350340493635756224,
  673507154229608063424,
  673507136641718034624,
  823350358081525785024,
  823350340493635756224,
  823350358081525776834,
  823350340493635748034,
  823350358081525776834,
  823350340493635748034,
  673507154229608055234,
  673507136641718026434,
  823350358081525776834,
  823350340493635748034,
  823350358081492222404,
  823350340493568655554,
  823350358081492222404,
  823350340493568655554,
  673507154229574500804,
  673507136641650933954,
  823350358081492222404,
  823350340493568655554,
  823350357944053268934,
  823350340081352458434,
  823350357944053268934,
  823350340081352458434,
  673507154092135547334,
  673507136229434736834,
  823350357944053268934,
  823350340081352458434,
  823350366879766814784,
  823350366879766814784,
  823350366879733268544,
  823350366879733268544,
  823350366742294323264,
  823350366604922470464,
  823350366879699714114,
  823350366879733252164,
  823350366742260768834,
  823350366604922454084,
  823350366604821815364,
  823350366604821815364,
  11531498049961205824,
  11531498049961205824,
  11531498049927659584,
  11531498049927659584,
  11531497912488714304,
  11531497775116861504,
  11531498049894105154,
  11531498049927643204,
  11531497912455159874,
  11531497775116845124,
  11531497775016206404,
  11531497775016206404,
  164412590478073920,
  164412590478073920,
  164412590478073920,
  164412590478073920,
  164412453072674880,
  164412453072674880,
  164412453072674880,
  164412453072674880,
  164412315633729600,
  164412453005582400,
  164412315633729600,
  164412453005582400,
  164412178194776130,
  164412453005557830,
  164412178194776130,
  164412453005557830,
  164403796532535360,
  164403796532535360,
  164403796532535360,
  164403796532535360,
  164403659127136320,
  164403659127136320,
  164403659127136320,
  164403659127136320,
  164403521688191040,
  164403659060043840,
  164403521688191040,
  164403659060043840,
  164403384249237570,
  164403659060019270,
  164403384249237570,
  164403659060019270]
def ccdq_t4_bbbbbbbb_cert_5 : List Nat := [164395000440037440,
  164403792238616640,
  164395000440037440,
  164403792238616640,
  164394863034638400,
  164403654833217600,
  164394863034638400,
  164403654833217600,
  164394725595693120,
  164403654766125120,
  164394725595693120,
  164403654766125120,
  164394588156739650,
  164403654766100550,
  164394588156739650,
  164403654766100550,
  164386204347015360,
  164403792237044160,
  164386204347015360,
  164403792237044160,
  164386066941616320,
  164403654831645120,
  164386066941616320,
  164403654831645120,
  164385929502671040,
  164403654764552640,
  164385929502671040,
  164403654764552640,
  164385792063717570,
  164403654764528070,
  164385792063717570,
  164403654764528070,
  2283003892736064,
  2283003892736064,
  2282866487337024,
  2282866487337024,
  2283003892736064,
  2283003892736064,
  2283003892727874,
  2283003892727874,
  162160790664388672,
  162160790664388672,
  162160790663864512,
  162160790663864512,
  162160790664388672,
  162160790664388672,
  162151996718850112,
  162151996718850112,
  9226217990700933184,
  9226217990700933184,
  9226217990667386944,
  9226217990667386944,
  9226217990700933184,
  9226217990700933184,
  9226217853295534144,
  9226217853295534144,
  9226217990700933184,
  9226217990700933184,
  9226217990633824324,
  9226217990633824324,
  164412590478073920,
  164412590478073920,
  164412453072674880,
  164412453072674880,
  164412590477549760,
  164412590477549760,
  164412453072150720,
  164412453072150720,
  164412590478073920,
  164412590478073920,
  164412453072674880,
  164412453072674880,
  164412590477549760,
  164412590477549760,
  164412453072150720,
  164412453072150720,
  164412590478073920,
  164412590478073920,
  164412590478065730,
  164412590478065730,
  164412590477549760,
  164412590477549760,
  164412590477541570,
  164412590477541570,
  164412590478073920,
  164412590478073920,
  164412590478065730,
  164412590478065730,
  164412590477549760,
  164412590477549760,
  164412590477541570,
  164412590477541570,
  164412590478073920,
  164412590478073920,
  164412453072674880,
  164412453072674880,
  164403796532535360,
  164403796532535360,
  164403659127136320,
  164403659127136320,
  164412590478073920,
  164412590478073920,
  164412453072674880,
  164412453072674880,
  164403796532535360,
  164403796532535360,
  164403659127136320,
  164403659127136320,
  164412590478073920,
  164412590478073920,
  164412590478065730,
  164412590478065730,
  164403796532535360,
  164403796532535360,
  164403796532527170,
  164403796532527170,
  164412590478073920,
  164412590478073920,
  164412590478065730,
  164412590478065730,
  164403796532535360,
  164403796532535360,
  164403796532527170,
  164403796532527170,
  811818900033884659776,
  811818900033884659776,
  811818900031737700416,
  811818900031737700416,
  811818900033884659776,
  811818900033884659776,
  811818900033884135616,
  811818900033884135616,
  811818900033884659776,
  811818900033884659776,
  811818882441699663936,
  811818882441699663936,
  823350366879766814784,
  823350366879766814784,
  823350366742361415744,
  823350366742361415744,
  675812443087109365824,
  675812443087109365824,
  675812442949703966784,
  675812442949703966784,
  823350366879766814784,
  823350366879766814784,
  823350366742361415744,
  823350366742361415744,
  823350366879766814784,
  823350366879766814784,
  823350366879766806594,
  823350366879766806594,
  675812443087109365824,
  675812443087109365824,
  675812443087109357634,
  675812443087109357634,
  823350366879766814784,
  823350366879766814784,
  823350366879766806594,
  823350366879766806594,
  821045086820506542144,
  821045086820506542144,
  821045086820472995904,
  821045086820472995904,
  821045086820506542144,
  821045086820506542144,
  821045086683101143104,
  821045086683101143104,
  821045086820506542144,
  821045086820506542144,
  821045086820439433284,
  821045086820439433284,
  821045086820506542144,
  821045086820506542144,
  821045086820506017984,
  821045086820506017984,
  823350366879766814784,
  823350366879766814784,
  823350366879766290624,
  823350366879766290624,
  821045086820506542144,
  821045086820506542144,
  821045086820506017984,
  821045086820506017984,
  823350366879766814784,
  823350366879766814784,
  823350366742361415744,
  823350366742361415744,
  823350366879766290624,
  823350366879766290624,
  823350366742360891584,
  823350366742360891584,
  823350366879766814784,
  823350366879766814784,
  823350366742361415744,
  823350366742361415744,
  823350366879766290624,
  823350366879766290624,
  823350366742360891584,
  823350366742360891584,
  673507163027849093184,
  673507163027849093184,
  673507162890443694144,
  673507162890443694144,
  673507163027848569024,
  673507163027848569024,
  673507162890443169984,
  673507162890443169984,
  823350366879766814784,
  823350366879766814784,
  823350366742361415744,
  823350366742361415744,
  823350366879766290624,
  823350366879766290624,
  823350366742360891584,
  823350366742360891584,
  823350366879766814784,
  823350366879766814784,
  823350366879766806594,
  823350366879766806594,
  823350366879766290624,
  823350366879766290624,
  823350366879766282434,
  823350366879766282434,
  823350366879766814784,
  823350366879766814784,
  823350366879766806594,
  823350366879766806594,
  823350366879766290624,
  823350366879766290624,
  823350366879766282434,
  823350366879766282434,
  673507163027849093184,
  673507163027849093184,
  673507163027849084994,
  673507163027849084994,
  673507163027848569024,
  673507163027848569024,
  673507163027848560834,
  673507163027848560834,
  823350366879766814784,
  823350366879766814784,
  823350366879766806594,
  823350366879766806594,
  823350366879766290624,
  823350366879766290624,
  823350366879766282434,
  823350366879766282434,
  673507163027849093184,
  673507163027849093184,
  673507163027815546944,
  673507163027815546944,
  673507163027848569024,
  673507163027848569024,
  673507163027815022784,
  673507163027815022784,
  675812443087109365824,
  675812443087109365824,
  675812443087075819584,
  675812443087075819584,
  675812443087108841664,
  675812443087108841664,
  675812443087075295424,
  675812443087075295424,
  821045086820506542144,
  821045086820506542144,
  821045086820472995904,
  821045086820472995904,
  821045086820506017984,
  821045086820506017984,
  821045086820472471744,
  821045086820472471744,
  673507163027849093184,
  673507163027849093184,
  673507162890443694144,
  673507162890443694144,
  673507163027848569024,
  673507163027848569024,
  673507162890443169984,
  673507162890443169984,
  675812443087109365824,
  675812443087109365824,
  675812442949703966784,
  675812442949703966784,
  675812443087108841664,
  675812443087108841664,
  675812442949703442624,
  675812442949703442624,
  821045086820506542144,
  821045086820506542144,
  821045086683101143104,
  821045086683101143104,
  821045086820506017984,
  821045086820506017984,
  821045086683100618944,
  821045086683100618944,
  673507163027849093184,
  673507163027849093184,
  673507163027781984324,
  673507163027781984324,
  673507163027848569024,
  673507163027848569024,
  673507163027781460164,
  673507163027781460164,
  675812443087109365824,
  675812443087109365824,
  675812443087042256964,
  675812443087042256964,
  675812443087108841664,
  675812443087108841664,
  675812443087041732804,
  675812443087041732804,
  821045086820506542144,
  821045086820506542144,
  821045086820439433284,
  821045086820439433284,
  821045086820506017984,
  821045086820506017984,
  821045086820438909124,
  821045086820438909124,
  821045086820506542144,
  821045086820506542144,
  821045078026561003584,
  821045078026561003584,
  823350366879766814784,
  823350366879766814784,
  823350358085821276224,
  823350358085821276224,
  821045086820506542144,
  821045086820506542144,
  821045078026561003584,
  821045078026561003584,
  823350366879766814784,
  823350366879766814784,
  823350366742361415744,
  823350366742361415744,
  823350358085821276224,
  823350358085821276224,
  823350357948415877184,
  823350357948415877184,
  823350366879766814784,
  823350366879766814784,
  823350366742361415744,
  823350366742361415744,
  823350358085821276224,
  823350358085821276224,
  823350357948415877184,
  823350357948415877184,
  673507163027849093184,
  673507163027849093184,
  673507162890443694144,
  673507162890443694144,
  673507154233903554624,
  673507154233903554624,
  673507154096498155584,
  673507154096498155584,
  823350366879766814784,
  823350366879766814784,
  823350366742361415744,
  823350366742361415744,
  823350358085821276224,
  823350358085821276224,
  823350357948415877184,
  823350357948415877184,
  823350366879766814784,
  823350366879766814784,
  823350366879766806594,
  823350366879766806594,
  823350358085821276224,
  823350358085821276224,
  823350358085821268034,
  823350358085821268034,
  823350366879766814784,
  823350366879766814784,
  823350366879766806594,
  823350366879766806594,
  823350358085821276224,
  823350358085821276224,
  823350358085821268034,
  823350358085821268034,
  673507163027849093184,
  673507163027849093184,
  673507163027849084994,
  673507163027849084994,
  673507154233903554624,
  673507154233903554624,
  673507154233903546434,
  673507154233903546434,
  823350366879766814784,
  823350366879766814784,
  823350366879766806594,
  823350366879766806594,
  823350358085821276224,
  823350358085821276224,
  823350358085821268034,
  823350358085821268034,
  673507163027849093184,
  673507163027849093184,
  673507163027815546944,
  673507163027815546944]
def ccdq_t4_bbbbbbbb_cert_6 : List Nat := [673507154233903554624,
  673507154233903554624,
  673507154233870008384,
  673507154233870008384,
  675812443087109365824,
  675812443087109365824,
  675812443087075819584,
  675812443087075819584,
  675812434293163827264,
  675812434293163827264,
  675812434293130281024,
  675812434293130281024,
  821045086820506542144,
  821045086820506542144,
  821045086820472995904,
  821045086820472995904,
  821045078026561003584,
  821045078026561003584,
  821045078026527457344,
  821045078026527457344,
  673507163027849093184,
  673507163027849093184,
  673507162890443694144,
  673507162890443694144,
  673507154233903554624,
  673507154233903554624,
  673507154096498155584,
  673507154096498155584,
  675812443087109365824,
  675812443087109365824,
  675812442949703966784,
  675812442949703966784,
  675812434293163827264,
  675812434293163827264,
  675812434155758428224,
  675812434155758428224,
  821045086820506542144,
  821045086820506542144,
  821045086683101143104,
  821045086683101143104,
  821045078026561003584,
  821045078026561003584,
  821045077889155604544,
  821045077889155604544,
  673507163027849093184,
  673507163027849093184,
  673507163027781984324,
  673507163027781984324,
  673507154233903554624,
  673507154233903554624,
  673507154233836445764,
  673507154233836445764,
  675812443087109365824,
  675812443087109365824,
  675812443087042256964,
  675812443087042256964,
  675812434293163827264,
  675812434293163827264,
  675812434293096718404,
  675812434293096718404,
  821045086820506542144,
  821045086820506542144,
  821045086820439433284,
  821045086820439433284,
  821045078026561003584,
  821045078026561003584,
  821045078026493894724,
  821045078026493894724,
  821045086820506542144,
  821045086820506542144,
  821045086818359582784,
  821045086818359582784,
  821045086820506542144,
  821045086820506542144,
  821045086683101143104,
  821045086683101143104,
  821045086818359582784,
  821045086818359582784,
  821045086680954183744,
  821045086680954183744,
  673507163027849093184,
  673507163027849093184,
  673507162890443694144,
  673507162890443694144,
  673507163025702133824,
  673507163025702133824,
  673507162888296734784,
  673507162888296734784,
  823350366879766814784,
  823350366879766814784,
  823350366742361415744,
  823350366742361415744,
  823350366877619855424,
  823350366877619855424,
  823350366740214456384,
  823350366740214456384,
  821045086820506542144,
  821045086820506542144,
  821045086820506533954,
  821045086820506533954,
  821045086818359582784,
  821045086818359582784,
  821045086818359574594,
  821045086818359574594,
  673507163027849093184,
  673507163027849093184,
  673507163027849084994,
  673507163027849084994,
  673507163025702133824,
  673507163025702133824,
  673507163025702125634,
  673507163025702125634,
  823350366879766814784,
  823350366879766814784,
  823350366879766806594,
  823350366879766806594,
  823350366877619855424,
  823350366877619855424,
  823350366877619847234,
  823350366877619847234,
  821045086820506542144,
  821045086820506542144,
  821045086820506017984,
  821045086820506017984,
  821045086820506542144,
  821045086820506542144,
  821045086683101143104,
  821045086683101143104,
  821045086820506017984,
  821045086820506017984,
  821045086683100618944,
  821045086683100618944,
  673507163027849093184,
  673507163027849093184,
  673507162890443694144,
  673507162890443694144,
  673507163027848569024,
  673507163027848569024,
  673507162890443169984,
  673507162890443169984,
  823350366879766814784,
  823350366879766814784,
  823350366742361415744,
  823350366742361415744,
  823350366879766290624,
  823350366879766290624,
  823350366742360891584,
  823350366742360891584,
  821045086820506542144,
  821045086820506542144,
  821045086820506533954,
  821045086820506533954,
  821045086820506017984,
  821045086820506017984,
  821045086820506009794,
  821045086820506009794,
  673507163027849093184,
  673507163027849093184,
  673507163027849084994,
  673507163027849084994,
  673507163027848569024,
  673507163027848569024,
  673507163027848560834,
  673507163027848560834,
  823350366879766814784,
  823350366879766814784,
  823350366879766806594,
  823350366879766806594,
  823350366879766290624,
  823350366879766290624,
  823350366879766282434,
  823350366879766282434,
  821045086820506542144,
  821045086820506542144,
  821045069228321546304,
  821045069228321546304,
  821045086820506542144,
  821045086820506542144,
  821045086683101143104,
  821045086683101143104,
  821045069228321546304,
  821045069228321546304,
  821045069090916147264,
  821045069090916147264,
  673507163027849093184,
  673507163027849093184,
  673507162890443694144,
  673507162890443694144,
  673507145435664097344,
  673507145435664097344,
  673507145298258698304,
  673507145298258698304,
  823350366879766814784,
  823350366879766814784,
  823350366742361415744,
  823350366742361415744,
  823350349287581818944,
  823350349287581818944,
  823350349150176419904,
  823350349150176419904,
  821045086820506542144,
  821045086820506542144,
  821045086820506533954,
  821045086820506533954,
  821045069228321546304,
  821045069228321546304,
  821045069228321538114,
  821045069228321538114,
  673507163027849093184,
  673507163027849093184,
  673507163027849084994,
  673507163027849084994,
  673507145435664097344,
  673507145435664097344,
  673507145435664089154,
  673507145435664089154,
  823350366879766814784,
  823350366879766814784,
  823350366879766806594,
  823350366879766806594,
  823350349287581818944,
  823350349287581818944,
  823350349287581810754,
  823350349287581810754,
  11531498049961205824,
  11531498049961205824,
  11531498049961197634,
  11531498049961197634,
  11531498047814246464,
  11531498047814246464,
  11531498047814238274,
  11531498047814238274,
  11531498049961205824,
  11531498049961205824,
  11531498049961197634,
  11531498049961197634,
  11531498049961205824,
  11531498049961205824,
  11531498049894096964,
  11531498049894096964,
  11531498047814246464,
  11531498047814246464,
  11531498047747137604,
  11531498047747137604,
  11531498049961205824,
  11531498049961205824,
  11531498049894096964,
  11531498049894096964,
  11531498049961205824,
  11531498049961205824,
  11531498049927659584,
  11531498049927659584,
  11531498047814246464,
  11531498047814246464,
  11531498047780700224,
  11531498047780700224,
  11531498049961205824,
  11531498049961205824,
  11531498049927659584,
  11531498049927659584,
  11531498049961205824,
  11531498049961205824,
  11531497637644345414,
  11531497637644345414,
  11531498047814246464,
  11531498047814246464,
  11531497635497386054,
  11531497635497386054,
  11531498049961205824,
  11531498049961205824,
  11531497637644345414,
  11531497637644345414,
  11531498049961205824,
  11531498049961205824,
  11531497775083315264,
  11531497775083315264,
  11531498047814246464,
  11531498047814246464,
  11531497772936355904,
  11531497772936355904,
  11531498049961205824,
  11531498049961205824,
  11531497775083315264,
  11531497775083315264,
  11531498049961205824,
  11531498049961205824,
  11531497912555806784,
  11531497912555806784,
  11531498047814246464,
  11531498047814246464,
  11531497910408847424,
  11531497910408847424,
  11531498049961205824,
  11531498049961205824,
  11531497912555806784,
  11531497912555806784,
  164412590478073920,
  164412590478073920,
  164412590478065730,
  164412590478065730,
  164412588331114560,
  164412588331114560,
  164412588331106370,
  164412588331106370,
  164412590478073920,
  164412590478073920,
  164412453072674880,
  164412453072674880,
  164412588331114560,
  164412588331114560,
  164412450925715520,
  164412450925715520,
  164412590478073920,
  164412590478073920,
  164412590478065730,
  164412590478065730,
  164412590477549760,
  164412590477549760,
  164412590477541570,
  164412590477541570,
  164412590478073920,
  164412590478073920,
  164412453072674880,
  164412453072674880,
  164412590477549760,
  164412590477549760,
  164412453072150720,
  164412453072150720,
  164412590478073920,
  164412590478073920,
  164412590478065730,
  164412590478065730,
  164412588331114560,
  164412588331114560,
  164412588331106370,
  164412588331106370,
  164412590478073920,
  164412590478073920,
  164412590478065730,
  164412590478065730,
  164412590477549760,
  164412590477549760,
  164412590477541570,
  164412590477541570,
  164412590478073920,
  164412590478073920,
  164412590410965060,
  164412590410965060,
  164412588331114560,
  164412588331114560,
  164412588264005700,
  164412588264005700,
  164412590478073920,
  164412590478073920,
  164412590478065730,
  164412590478065730,
  164412588331114560,
  164412588331114560,
  164412588331106370,
  164412588331106370,
  164412590478073920,
  164412590478073920,
  164412590410965060,
  164412590410965060,
  164412590477549760,
  164412590477549760,
  164412590410440900,
  164412590410440900,
  164412590478073920,
  164412590478073920,
  164412590478065730,
  164412590478065730,
  164412590477549760,
  164412590477549760,
  164412590477541570,
  164412590477541570,
  164412590478073920,
  164412590478073920,
  164412590444527680,
  164412590444527680,
  164412588331114560,
  164412588331114560,
  164412588297568320,
  164412588297568320,
  164412590478073920,
  164412590478073920,
  164412590444527680,
  164412590444527680,
  164412590477549760,
  164412590477549760,
  164412590444003520,
  164412590444003520,
  164412590478073920,
  164412590478073920,
  164412590478065730,
  164412590478065730,
  164412586183106880,
  164412586183106880,
  164412586183098690,
  164412586183098690]
def ccdq_t4_bbbbbbbb_cert_7 : List Nat := [164412590478073920,
  164412590478073920,
  164412453072674880,
  164412453072674880,
  164412586183106880,
  164412586183106880,
  164412448777707840,
  164412448777707840,
  164412590478073920,
  164412590478073920,
  164412590478065730,
  164412590478065730,
  164412586183106880,
  164412586183106880,
  164412586183098690,
  164412586183098690,
  164412590478073920,
  164412590478073920,
  164412590410965060,
  164412590410965060,
  164412586183106880,
  164412586183106880,
  164412586115998020,
  164412586115998020,
  164412590478073920,
  164412590478073920,
  164412590478065730,
  164412590478065730,
  164412586183106880,
  164412586183106880,
  164412586183098690,
  164412586183098690,
  164412590478073920,
  164412590478073920,
  164412590444527680,
  164412590444527680,
  164412586183106880,
  164412586183106880,
  164412586149560640,
  164412586149560640,
  164412590478073920,
  164412590478073920,
  164412590478065730,
  164412590478065730,
  164412590477549760,
  164412590477549760,
  164412590477541570,
  164412590477541570,
  164412590478073920,
  164412590478073920,
  164412453072674880,
  164412453072674880,
  164412590477549760,
  164412590477549760,
  164412453072150720,
  164412453072150720,
  164412590478073920,
  164412590478073920,
  164412590478065730,
  164412590478065730,
  164403796532535360,
  164403796532535360,
  164403796532527170,
  164403796532527170,
  164412590478073920,
  164412590478073920,
  164412453072674880,
  164412453072674880,
  164403796532535360,
  164403796532535360,
  164403659127136320,
  164403659127136320,
  164412590478073920,
  164412590478073920,
  164412590478065730,
  164412590478065730,
  164412590477549760,
  164412590477549760,
  164412590477541570,
  164412590477541570,
  164412590478073920,
  164412590478073920,
  164412590478065730,
  164412590478065730,
  164403796532535360,
  164403796532535360,
  164403796532527170,
  164403796532527170,
  164412590478073920,
  164412590478073920,
  164412590410965060,
  164412590410965060,
  164412590477549760,
  164412590477549760,
  164412590410440900,
  164412590410440900,
  164412590478073920,
  164412590478073920,
  164412590478065730,
  164412590478065730,
  164412590477549760,
  164412590477549760,
  164412590477541570,
  164412590477541570,
  164412590478073920,
  164412590478073920,
  164412590410965060,
  164412590410965060,
  164403796532535360,
  164403796532535360,
  164403796465426500,
  164403796465426500,
  164412590478073920,
  164412590478073920,
  164412590478065730,
  164412590478065730,
  164403796532535360,
  164403796532535360,
  164403796532527170,
  164403796532527170,
  164412590478073920,
  164412590478073920,
  164412590444527680,
  164412590444527680,
  164412590477549760,
  164412590477549760,
  164412590444003520,
  164412590444003520,
  164412590478073920,
  164412590478073920,
  164412590444527680,
  164412590444527680,
  164403796532535360,
  164403796532535360,
  164403796498989120,
  164403796498989120,
  164412590478073920,
  164412590478073920,
  164412590478065730,
  164412590478065730,
  164412590477549760,
  164412590477549760,
  164412590477541570,
  164412590477541570,
  164412590478073920,
  164412590478073920,
  164412453072674880,
  164412453072674880,
  164412590477549760,
  164412590477549760,
  164412453072150720,
  164412453072150720,
  164412590478073920,
  164412590478073920,
  164412590478065730,
  164412590478065730,
  164412590477549760,
  164412590477549760,
  164412590477541570,
  164412590477541570,
  164412590478073920,
  164412590478073920,
  164412590410965060,
  164412590410965060,
  164412590477549760,
  164412590477549760,
  164412590410440900,
  164412590410440900,
  164412590478073920,
  164412590478073920,
  164412590478065730,
  164412590478065730,
  164412590477549760,
  164412590477549760,
  164412590477541570,
  164412590477541570,
  164412590478073920,
  164412590478073920,
  164412590444527680,
  164412590444527680,
  164412590477549760,
  164412590477549760,
  164412590444003520,
  164412590444003520,
  811818900033884659776,
  811818900033884659776,
  811818900033851113536,
  811818900033851113536,
  811818900031737700416,
  811818900031737700416,
  811818900031704154176,
  811818900031704154176,
  811818900033884659776,
  811818900033884659776,
  811818899896479260736,
  811818899896479260736,
  811818900031737700416,
  811818900031737700416,
  811818899894332301376,
  811818899894332301376,
  811818900033884659776,
  811818900033884659776,
  811818900033817550916,
  811818900033817550916,
  811818900031737700416,
  811818900031737700416,
  811818900031670591556,
  811818900031670591556,
  811818900033884659776,
  811818900033884659776,
  811818900033851113536,
  811818900033851113536,
  811818900033884135616,
  811818900033884135616,
  811818900033850589376,
  811818900033850589376,
  811818900033884659776,
  811818900033884659776,
  811818899896479260736,
  811818899896479260736,
  811818900033884135616,
  811818900033884135616,
  811818899896478736576,
  811818899896478736576,
  811818900033884659776,
  811818900033884659776,
  811818900033817550916,
  811818900033817550916,
  811818900033884135616,
  811818900033884135616,
  811818900033817026756,
  811818900033817026756,
  811818900033884659776,
  811818900033884659776,
  811818900033851113536,
  811818900033851113536,
  811818882441699663936,
  811818882441699663936,
  811818882441666117696,
  811818882441666117696,
  811818900033884659776,
  811818900033884659776,
  811818899896479260736,
  811818899896479260736,
  811818882441699663936,
  811818882441699663936,
  811818882304294264896,
  811818882304294264896,
  811818900033884659776,
  811818900033884659776,
  811818900033817550916,
  811818900033817550916,
  811818882441699663936,
  811818882441699663936,
  811818882441632555076,
  811818882441632555076,
  823350366879766814784,
  823350366879766814784,
  823350366879766806594,
  823350366879766806594,
  823350366877619855424,
  823350366877619855424,
  823350366877619847234,
  823350366877619847234,
  823350366879766814784,
  823350366879766814784,
  823350366879766806594,
  823350366879766806594,
  823350366879766814784,
  823350366879766814784,
  823350366879699705924,
  823350366879699705924,
  823350366877619855424,
  823350366877619855424,
  823350366877552746564,
  823350366877552746564,
  823350366879766814784,
  823350366879766814784,
  823350366879699705924,
  823350366879699705924,
  823350366879766814784,
  823350366879766814784,
  823350366879733268544,
  823350366879733268544,
  823350366877619855424,
  823350366877619855424,
  823350366877586309184,
  823350366877586309184,
  823350366879766814784,
  823350366879766814784,
  823350366879733268544,
  823350366879733268544,
  823350366879766814784,
  823350366879766814784,
  823350366467449954374,
  823350366467449954374,
  823350366877619855424,
  823350366877619855424,
  823350366465302995014,
  823350366465302995014,
  823350366879766814784,
  823350366879766814784,
  823350366467449954374,
  823350366467449954374,
  823350366879766814784,
  823350366879766814784,
  823350366604888924224,
  823350366604888924224,
  823350366877619855424,
  823350366877619855424,
  823350366602741964864,
  823350366602741964864,
  823350366879766814784,
  823350366879766814784,
  823350366604888924224,
  823350366604888924224,
  823350366879766814784,
  823350366879766814784,
  823350366742361415744,
  823350366742361415744,
  823350366877619855424,
  823350366877619855424,
  823350366740214456384,
  823350366740214456384,
  823350366879766814784,
  823350366879766814784,
  823350366742361415744,
  823350366742361415744,
  823350366879766814784,
  823350366879766814784,
  823350366879766806594,
  823350366879766806594,
  823350366877619855424,
  823350366877619855424,
  823350366877619847234,
  823350366877619847234,
  823350366879766814784,
  823350366879766814784,
  823350366879766806594,
  823350366879766806594,
  823350366877619855424,
  823350366877619855424,
  823350366877619847234,
  823350366877619847234,
  823350366879766814784,
  823350366879766814784,
  823350366742361415744,
  823350366742361415744,
  823350366877619855424,
  823350366877619855424,
  823350366740214456384,
  823350366740214456384,
  823350366879766814784,
  823350366879766814784,
  823350366742361415744,
  823350366742361415744,
  823350366877619855424,
  823350366877619855424,
  823350366740214456384,
  823350366740214456384,
  823350366879766814784,
  823350366879766814784,
  823350366879766806594,
  823350366879766806594,
  823350366879766290624,
  823350366879766290624,
  823350366879766282434,
  823350366879766282434,
  823350366879766814784,
  823350366879766814784,
  823350366879766806594,
  823350366879766806594,
  823350366879766290624,
  823350366879766290624,
  823350366879766282434,
  823350366879766282434,
  823350366879766814784,
  823350366879766814784,
  823350366742361415744,
  823350366742361415744,
  823350366879766290624,
  823350366879766290624,
  823350366742360891584,
  823350366742360891584,
  823350366879766814784,
  823350366879766814784,
  823350366742361415744,
  823350366742361415744,
  823350366879766290624,
  823350366879766290624,
  823350366742360891584,
  823350366742360891584,
  823350366879766814784,
  823350366879766814784,
  823350366879766806594,
  823350366879766806594,
  823350366877619855424,
  823350366877619855424,
  823350366877619847234,
  823350366877619847234]
def ccdq_t4_bbbbbbbb_cert_8 : List Nat := [823350366879766814784,
  823350366879766814784,
  823350366879766806594,
  823350366879766806594,
  823350366877619855424,
  823350366877619855424,
  823350366877619847234,
  823350366877619847234,
  823350366879766814784,
  823350366879766814784,
  823350366879766806594,
  823350366879766806594,
  823350366879766290624,
  823350366879766290624,
  823350366879766282434,
  823350366879766282434,
  823350366879766814784,
  823350366879766814784,
  823350366879766806594,
  823350366879766806594,
  823350366879766290624,
  823350366879766290624,
  823350366879766282434,
  823350366879766282434,
  823350366879766814784,
  823350366879766814784,
  823350366879699705924,
  823350366879699705924,
  823350366877619855424,
  823350366877619855424,
  823350366877552746564,
  823350366877552746564,
  823350366879766814784,
  823350366879766814784,
  823350366879699705924,
  823350366879699705924,
  823350366877619855424,
  823350366877619855424,
  823350366877552746564,
  823350366877552746564,
  823350366879766814784,
  823350366879766814784,
  823350366879766806594,
  823350366879766806594,
  823350366877619855424,
  823350366877619855424,
  823350366877619847234,
  823350366877619847234,
  823350366879766814784,
  823350366879766814784,
  823350366879766806594,
  823350366879766806594,
  823350366877619855424,
  823350366877619855424,
  823350366877619847234,
  823350366877619847234,
  823350366879766814784,
  823350366879766814784,
  823350366879699705924,
  823350366879699705924,
  823350366879766290624,
  823350366879766290624,
  823350366879699181764,
  823350366879699181764,
  823350366879766814784,
  823350366879766814784,
  823350366879699705924,
  823350366879699705924,
  823350366879766290624,
  823350366879766290624,
  823350366879699181764,
  823350366879699181764,
  823350366879766814784,
  823350366879766814784,
  823350366879766806594,
  823350366879766806594,
  823350366879766290624,
  823350366879766290624,
  823350366879766282434,
  823350366879766282434,
  823350366879766814784,
  823350366879766814784,
  823350366879766806594,
  823350366879766806594,
  823350366879766290624,
  823350366879766290624,
  823350366879766282434,
  823350366879766282434,
  823350366879766814784,
  823350366879766814784,
  823350366879733268544,
  823350366879733268544,
  823350366877619855424,
  823350366877619855424,
  823350366877586309184,
  823350366877586309184,
  823350366879766814784,
  823350366879766814784,
  823350366879733268544,
  823350366879733268544,
  823350366877619855424,
  823350366877619855424,
  823350366877586309184,
  823350366877586309184,
  823350366879766814784,
  823350366879766814784,
  823350366879733268544,
  823350366879733268544,
  823350366879766290624,
  823350366879766290624,
  823350366879732744384,
  823350366879732744384,
  823350366879766814784,
  823350366879766814784,
  823350366879733268544,
  823350366879733268544,
  823350366879766290624,
  823350366879766290624,
  823350366879732744384,
  823350366879732744384,
  675812443087109365824,
  675812443087109365824,
  675812443087109357634,
  675812443087109357634,
  675812443084962406464,
  675812443084962406464,
  675812443084962398274,
  675812443084962398274,
  823350366879766814784,
  823350366879766814784,
  823350366879766806594,
  823350366879766806594,
  823350366877619855424,
  823350366877619855424,
  823350366877619847234,
  823350366877619847234,
  821045086820506542144,
  821045086820506542144,
  821045086820472995904,
  821045086820472995904,
  821045086818359582784,
  821045086818359582784,
  821045086818326036544,
  821045086818326036544,
  675812443087109365824,
  675812443087109365824,
  675812443087109357634,
  675812443087109357634,
  675812443087108841664,
  675812443087108841664,
  675812443087108833474,
  675812443087108833474,
  823350366879766814784,
  823350366879766814784,
  823350366879766806594,
  823350366879766806594,
  823350366879766290624,
  823350366879766290624,
  823350366879766282434,
  823350366879766282434,
  821045086820506542144,
  821045086820506542144,
  821045086820472995904,
  821045086820472995904,
  821045086820506017984,
  821045086820506017984,
  821045086820472471744,
  821045086820472471744,
  675812443087109365824,
  675812443087109365824,
  675812443087042256964,
  675812443087042256964,
  675812443084962406464,
  675812443084962406464,
  675812443084895297604,
  675812443084895297604,
  823350366879766814784,
  823350366879766814784,
  823350366879699705924,
  823350366879699705924,
  823350366877619855424,
  823350366877619855424,
  823350366877552746564,
  823350366877552746564,
  675812443087109365824,
  675812443087109365824,
  675812443087042256964,
  675812443087042256964,
  675812443087108841664,
  675812443087108841664,
  675812443087041732804,
  675812443087041732804,
  823350366879766814784,
  823350366879766814784,
  823350366879699705924,
  823350366879699705924,
  823350366879766290624,
  823350366879766290624,
  823350366879699181764,
  823350366879699181764,
  675812443087109365824,
  675812443087109365824,
  675812443087075819584,
  675812443087075819584,
  675812443084962406464,
  675812443084962406464,
  675812443084928860224,
  675812443084928860224,
  823350366879766814784,
  823350366879766814784,
  823350366879733268544,
  823350366879733268544,
  823350366877619855424,
  823350366877619855424,
  823350366877586309184,
  823350366877586309184,
  821045086820506542144,
  821045086820506542144,
  821045086683101143104,
  821045086683101143104,
  821045086818359582784,
  821045086818359582784,
  821045086680954183744,
  821045086680954183744,
  675812443087109365824,
  675812443087109365824,
  675812443087075819584,
  675812443087075819584,
  675812443087108841664,
  675812443087108841664,
  675812443087075295424,
  675812443087075295424,
  823350366879766814784,
  823350366879766814784,
  823350366879733268544,
  823350366879733268544,
  823350366879766290624,
  823350366879766290624,
  823350366879732744384,
  823350366879732744384,
  821045086820506542144,
  821045086820506542144,
  821045086683101143104,
  821045086683101143104,
  821045086820506017984,
  821045086820506017984,
  821045086683100618944,
  821045086683100618944,
  675812443087109365824,
  675812443087109365824,
  675812442674792505414,
  675812442674792505414,
  675812443084962406464,
  675812443084962406464,
  675812442672645546054,
  675812442672645546054,
  823350366879766814784,
  823350366879766814784,
  823350366467449954374,
  823350366467449954374,
  823350366877619855424,
  823350366877619855424,
  823350366465302995014,
  823350366465302995014,
  821045086820506542144,
  821045086820506542144,
  821045086820439433284,
  821045086820439433284,
  821045086818359582784,
  821045086818359582784,
  821045086818292473924,
  821045086818292473924,
  675812443087109365824,
  675812443087109365824,
  675812442674792505414,
  675812442674792505414,
  675812443087108841664,
  675812443087108841664,
  675812442674791981254,
  675812442674791981254,
  823350366879766814784,
  823350366879766814784,
  823350366467449954374,
  823350366467449954374,
  823350366879766290624,
  823350366879766290624,
  823350366467449430214,
  823350366467449430214,
  821045086820506542144,
  821045086820506542144,
  821045086820439433284,
  821045086820439433284,
  821045086820506017984,
  821045086820506017984,
  821045086820438909124,
  821045086820438909124,
  675812443087109365824,
  675812443087109365824,
  675812442812231475264,
  675812442812231475264,
  675812443084962406464,
  675812443084962406464,
  675812442810084515904,
  675812442810084515904,
  823350366879766814784,
  823350366879766814784,
  823350366604888924224,
  823350366604888924224,
  823350366877619855424,
  823350366877619855424,
  823350366602741964864,
  823350366602741964864,
  675812443087109365824,
  675812443087109365824,
  675812442812231475264,
  675812442812231475264,
  675812443087108841664,
  675812443087108841664,
  675812442812230951104,
  675812442812230951104,
  823350366879766814784,
  823350366879766814784,
  823350366604888924224,
  823350366604888924224,
  823350366879766290624,
  823350366879766290624,
  823350366604888400064,
  823350366604888400064,
  675812443087109365824,
  675812443087109365824,
  675812442949703966784,
  675812442949703966784,
  675812443084962406464,
  675812443084962406464,
  675812442947557007424,
  675812442947557007424,
  823350366879766814784,
  823350366879766814784,
  823350366742361415744,
  823350366742361415744,
  823350366877619855424,
  823350366877619855424,
  823350366740214456384,
  823350366740214456384,
  675812443087109365824,
  675812443087109365824,
  675812442949703966784,
  675812442949703966784,
  675812443087108841664,
  675812443087108841664,
  675812442949703442624,
  675812442949703442624,
  823350366879766814784,
  823350366879766814784,
  823350366742361415744,
  823350366742361415744,
  823350366879766290624,
  823350366879766290624,
  823350366742360891584,
  823350366742360891584,
  823350366879766814784,
  823350366879766814784,
  823350366879766806594,
  823350366879766806594,
  823350366879766814784,
  823350366879766814784,
  823350366879766806594,
  823350366879766806594,
  823350366879766814784,
  823350366879766814784,
  823350366742361415744,
  823350366742361415744,
  823350366879766814784,
  823350366879766814784,
  823350366742361415744,
  823350366742361415744,
  823350366879766814784,
  823350366879766814784,
  823350366879766806594,
  823350366879766806594,
  823350366879766814784,
  823350366879766814784,
  823350366879766806594,
  823350366879766806594,
  823350366879766814784,
  823350366879766814784,
  823350366879699705924,
  823350366879699705924,
  823350366879766814784,
  823350366879766814784,
  823350366879699705924,
  823350366879699705924,
  823350366879766814784,
  823350366879766814784,
  823350366879766806594,
  823350366879766806594,
  823350366879766814784,
  823350366879766814784,
  823350366879766806594,
  823350366879766806594]
def ccdq_t4_bbbbbbbb_cert_9 : List Nat := [823350366879766814784,
  823350366879766814784,
  823350366879733268544,
  823350366879733268544,
  823350366879766814784,
  823350366879766814784,
  823350366879733268544,
  823350366879733268544,
  675812443087109365824,
  675812443087109365824,
  675812443087109357634,
  675812443087109357634,
  823350366879766814784,
  823350366879766814784,
  823350366879766806594,
  823350366879766806594,
  821045086820506542144,
  821045086820506542144,
  821045086820472995904,
  821045086820472995904,
  675812443087109365824,
  675812443087109365824,
  675812443087042256964,
  675812443087042256964,
  823350366879766814784,
  823350366879766814784,
  823350366879699705924,
  823350366879699705924,
  675812443087109365824,
  675812443087109365824,
  675812443087075819584,
  675812443087075819584,
  823350366879766814784,
  823350366879766814784,
  823350366879733268544,
  823350366879733268544,
  821045086820506542144,
  821045086820506542144,
  821045086683101143104,
  821045086683101143104,
  675812443087109365824,
  675812443087109365824,
  675812442674792505414,
  675812442674792505414,
  823350366879766814784,
  823350366879766814784,
  823350366467449954374,
  823350366467449954374,
  821045086820506542144,
  821045086820506542144,
  821045086820439433284,
  821045086820439433284,
  675812443087109365824,
  675812443087109365824,
  675812442812231475264,
  675812442812231475264,
  823350366879766814784,
  823350366879766814784,
  823350366604888924224,
  823350366604888924224,
  675812443087109365824,
  675812443087109365824,
  675812442949703966784,
  675812442949703966784,
  823350366879766814784,
  823350366879766814784,
  823350366742361415744,
  823350366742361415744,
  823350366879766814784,
  823350366879766814784,
  823350366879766806594,
  823350366879766806594,
  823350366879766814784,
  823350366879766814784,
  823350366879766806594,
  823350366879766806594,
  823350366879766814784,
  823350366879766814784,
  823350366742361415744,
  823350366742361415744,
  823350366879766814784,
  823350366879766814784,
  823350366742361415744,
  823350366742361415744,
  823350366879766814784,
  823350366879766814784,
  823350366879766806594,
  823350366879766806594,
  823350366879766814784,
  823350366879766814784,
  823350366879766806594,
  823350366879766806594,
  823350366879766814784,
  823350366879766814784,
  823350366879699705924,
  823350366879699705924,
  823350366879766814784,
  823350366879766814784,
  823350366879699705924,
  823350366879699705924,
  823350366879766814784,
  823350366879766814784,
  823350366879766806594,
  823350366879766806594,
  823350366879766814784,
  823350366879766814784,
  823350366879766806594,
  823350366879766806594,
  823350366879766814784,
  823350366879766814784,
  823350366879733268544,
  823350366879733268544,
  823350366879766814784,
  823350366879766814784,
  823350366879733268544,
  823350366879733268544,
  675812443087109365824,
  675812443087109365824,
  675812443087109357634,
  675812443087109357634,
  823350366879766814784,
  823350366879766814784,
  823350366879766806594,
  823350366879766806594,
  821045086820506542144,
  821045086820506542144,
  821045086820472995904,
  821045086820472995904,
  675812443087109365824,
  675812443087109365824,
  675812443087042256964,
  675812443087042256964,
  823350366879766814784,
  823350366879766814784,
  823350366879699705924,
  823350366879699705924,
  675812443087109365824,
  675812443087109365824,
  675812443087075819584,
  675812443087075819584,
  823350366879766814784,
  823350366879766814784,
  823350366879733268544,
  823350366879733268544,
  821045086820506542144,
  821045086820506542144,
  821045086683101143104,
  821045086683101143104,
  675812443087109365824,
  675812443087109365824,
  675812442674792505414,
  675812442674792505414,
  823350366879766814784,
  823350366879766814784,
  823350366467449954374,
  823350366467449954374,
  821045086820506542144,
  821045086820506542144,
  821045086820439433284,
  821045086820439433284,
  675812443087109365824,
  675812443087109365824,
  675812442812231475264,
  675812442812231475264,
  823350366879766814784,
  823350366879766814784,
  823350366604888924224,
  823350366604888924224,
  675812443087109365824,
  675812443087109365824,
  675812442949703966784,
  675812442949703966784,
  823350366879766814784,
  823350366879766814784,
  823350366742361415744,
  823350366742361415744]

/-- Check ccdq_t4_bbbbbbbb. C83 -/
theorem ccdq_t4_bbbbbbbb : isZeroSpin kinds [aᵥ, bᵥ, cᵥ, dᵥ, iₒ, jₒ, kₒ, lₒ] 4 [true, true, true, true, true, true, true, true]
    (Prog.outs [4, 5, 6, 7, 0, 1, 2, 3] (Prog.thin split_ccdq_t4 (Prog.ideal (ccdq_t4eqns_0))))
    (Prog.scale (-1) (Prog.ideal (ccdq_t4_bbbbbbbb)))
    (ccdq_t4_bbbbbbbb_cert_0 ++ (ccdq_t4_bbbbbbbb_cert_1 ++ (ccdq_t4_bbbbbbbb_cert_2 ++ (ccdq_t4_bbbbbbbb_cert_3 ++ (ccdq_t4_bbbbbbbb_cert_4 ++ (ccdq_t4_bbbbbbbb_cert_5 ++ (ccdq_t4_bbbbbbbb_cert_6 ++ (ccdq_t4_bbbbbbbb_cert_7 ++ (ccdq_t4_bbbbbbbb_cert_8 ++ (ccdq_t4_bbbbbbbb_cert_9)))))))))) = true := by decide +kernel

end Verif.Cert
