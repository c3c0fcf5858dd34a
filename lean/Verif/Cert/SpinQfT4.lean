import Verif.Ein.Spin
import Verif.Cert.Thin
import Verif.Gen.SiT4cub_0
import Verif.Gen.SiT4cub_1
import Verif.Gen.SiT4cub_2
import Verif.Gen.SiT4cub_3
import Verif.Gen.SiT4cub_4

/-! Written by `/verif/tools/gen.py`. Checks of einsum programs. -/

set_option maxRecDepth 100000

namespace Verif.Cert

open Verif.Ein Verif.Ein.N


open Verif.Gen

def ccsdtqT2cubed_t4_aaaaaaaa_cert_0 : List Nat := [823350366879766814784,
  823350366879766814784,
  823350366879733268544,
  823350366879733268544,
  823350366742294323264,
  823350366604922470464,
  823350366879766806594,
  823350366879766806594,
  823350366879733252164,
  823350366879699714114,
  823350366742294298694,
  823350366467483516994,
  823350366879699714114,
  823350366879733252164,
  823350366742260768834,
  823350366604922454084,
  823350366879699705924,
  823350366879699705924,
  823350366742260752454,
  823350366467483508804,
  823350366604821815364,
  823350366604821815364,
  823350366604821807174,
  823350366467416416324,
  823350366877619855424,
  823350366877619855424,
  823350366877586309184,
  823350366877586309184,
  823350366740147363904,
  823350366602775511104,
  823350366877619847234,
  823350366877619847234,
  823350366877586292804,
  823350366877552754754,
  823350366740147339334,
  823350366465336557634,
  823350366877552754754,
  823350366877586292804,
  823350366740113809474,
  823350366602775494724,
  823350366877552746564,
  823350366877552746564,
  823350366740113793094,
  823350366465336549444,
  823350366602674856004,
  823350366602674856004,
  823350366602674847814,
  823350366465269456964,
  823350358081527357504,
  823350349289728778304,
  823350358081493811264,
  823350349289695232064,
  823350357944054865984,
  823350349014884433984,
  823350358081527349314,
  823350349289728770114,
  823350358081493794884,
  823350349289661677634,
  823350357944054841414,
  823350348877445480514,
  823350358081460256834,
  823350349289695215684,
  823350357944021311554,
  823350349014884417604,
  823350358081460248644,
  823350349289661669444,
  823350357944021295174,
  823350348877445472324,
  823350357806582358084,
  823350349014783778884,
  823350357806582349894,
  823350348877378379844,
  821045086816212099264,
  821045086818358534464,
  821045086816178553024,
  821045086818324988224,
  821045086678739607744,
  821045086543514190144,
  821045086816212091074,
  821045086818358526274,
  821045086816178536644,
  821045086818291433794,
  821045086678739583174,
  821045086406075236674,
  821045086816144998594,
  821045086818324971844,
  821045086678706053314,
  821045086543514173764,
  821045086816144990404,
  821045086818291425604,
  821045086678706036934,
  821045086406075228484,
  821045086541267099844,
  821045086543413535044,
  821045086541267091654,
  821045086406008136004,
  821045078020119601344,
  821045069230467457344,
  821045078020086055104,
  821045069230433911104,
  821045077882647109824,
  821045068955623113024,
  821045078020119593154,
  821045069230467449154,
  821045078020086038724,
  821045069230400356674,
  821045077882647085254,
  821045068818184159554,
  821045078020052500674,
  821045069230433894724,
  821045077882613555394,
  821045068955623096644,
  821045078020052492484,
  821045069230400348484,
  821045077882613539014,
  821045068818184151364,
  821045077745174601924,
  821045068955522457924,
  821045077745174593734,
  821045068818117058884,
  821045069224026579264,
  821045069224026579264,
  821045069223993033024,
  821045069223993033024,
  821045069086554087744,
  821045068949182234944,
  821045069224026571074,
  821045069224026571074,
  821045069223993016644,
  821045069223959478594,
  821045069086554063174,
  821045068811743281474,
  821045069223959478594,
  821045069223993016644,
  821045069086520533314,
  821045068949182218564,
  821045069223959470404,
  821045069223959470404,
  821045069086520516934,
  821045068811743273284,
  821045068949081579844,
  821045068949081579844,
  821045068949081571654,
  821045068811676180804,
  821045086820506542144,
  821045086820506542144,
  823350366879766814784,
  823350366879766814784,
  821045086683101143104,
  821045086683101143104,
  823350366742361415744,
  823350366742361415744,
  821045086545662197824,
  821045086683034050624,
  823350366604922470464,
  823350366742294323264,
  821045086820506533954,
  821045086820506533954,
  823350366879766806594,
  823350366879766806594,
  821045086683101134914,
  821045086683101134914,
  823350366742361407554,
  823350366742361407554,
  821045086820472979524,
  821045086820439441474,
  823350366879733252164,
  823350366879699714114,
  821045086683034026054,
  821045086408223244354,
  823350366742294298694,
  823350366467483516994,
  821045086545662181444,
  821045086683000496194,
  823350366604922454084,
  823350366742260768834,
  821045086545628627014,
  821045086408189698114,
  823350366604888899654,
  823350366467449970754,
  821045086408223244354,
  821045086683034026054,
  823350366467483516994,
  823350366742294298694,
  821045086408223236164,
  821045086683000479814,
  823350366467483508804,
  823350366742260752454,
  821045086408189681734,
  821045086408189681734,
  823350366467449954374,
  823350366467449954374,
  673507154233903554624,
  673507154233903554624,
  823350358085821276224,
  823350358085821276224,
  673507154096498155584,
  673507154096498155584,
  823350357948415877184,
  823350357948415877184,
  673507153959059210304,
  673507154096431063104,
  823350357810976931904,
  823350357948348784704,
  673507154233903546434,
  673507154233903546434,
  823350358085821268034,
  823350358085821268034,
  673507154096498147394,
  673507154096498147394,
  823350357948415868994,
  823350357948415868994,
  673507154233869992004,
  673507154233836453954,
  823350358085787713604,
  823350358085754175554,
  673507154096431038534,
  673507153821620256834,
  823350357948348760134,
  823350357673537978434,
  673507153959059193924,
  673507154096397508674,
  823350357810976915524,
  823350357948315230274,
  673507153959025639494,
  673507153821586710594,
  823350357810943361094,
  823350357673504432194,
  673507153821620256834,
  673507154096431038534,
  823350357673537978434,
  823350357948348760134,
  673507153821620248644,
  673507154096397492294,
  823350357673537970244,
  823350357948315213894,
  673507153821586694214,
  673507153821586694214,
  823350357673504415814,
  823350357673504415814,
  821045086818359582784,
  821045086818359582784,
  823350366877619855424,
  823350366877619855424,
  821045086680954183744,
  821045086680954183744,
  823350366740214456384,
  823350366740214456384,
  821045086543515238464,
  821045086680887091264,
  823350366602775511104,
  823350366740147363904,
  821045086818359574594,
  821045086818359574594,
  823350366877619847234,
  823350366877619847234,
  821045086680954175554,
  821045086680954175554,
  823350366740214448194,
  823350366740214448194,
  821045086818326020164,
  821045086818292482114,
  823350366877586292804,
  823350366877552754754,
  821045086680887066694,
  821045086406076284994,
  823350366740147339334,
  823350366465336557634,
  821045086543515222084,
  821045086680853536834,
  823350366602775494724,
  823350366740113809474,
  821045086543481667654,
  821045086406042738754,
  823350366602741940294,
  823350366465303011394,
  821045086406076284994,
  821045086680887066694,
  823350366465336557634,
  823350366740147339334,
  821045086406076276804,
  821045086680853520454,
  823350366465336549444,
  823350366740113793094,
  821045086406042722374,
  821045086406042722374,
  823350366465302995014,
  823350366465302995014,
  821045078022267084864,
  821045069230468505664,
  823350358081527357504,
  823350349289728778304,
  821045077884861685824,
  821045069093063106624,
  823350357944121958464,
  823350349152323379264,
  821045077747422740544,
  821045069092996014144,
  823350357806683013184,
  823350349152256286784,
  821045078022267076674,
  821045069230468497474,
  823350358081527349314,
  823350349289728770114,
  821045077884861677634,
  821045069093063098434,
  823350357944121950274,
  823350349152323371074,
  821045078022233522244,
  821045069230401404994,
  823350358081493794884,
  823350349289661677634,
  821045077884794568774,
  821045068818185207874,
  823350357944054841414,
  823350348877445480514,
  821045077747422724164,
  821045069092962459714,
  823350357806682996804,
  823350349152222732354,
  821045077747389169734,
  821045068818151661634,
  823350357806649442374,
  823350348877411934274,
  821045077609983787074,
  821045069092995989574,
  823350357669244059714,
  823350349152256262214,
  821045077609983778884,
  821045069092962443334,
  823350357669244051524,
  823350349152222715974,
  821045077609950224454,
  821045068818151645254,
  823350357669210497094,
  823350348877411917894,
  673507145437811056704,
  673507154229609635904,
  823350349289728778304,
  823350358081527357504,
  673507145300405657664,
  673507154092204236864,
  823350349152323379264,
  823350357944121958464,
  673507145162966712384,
  673507154092137144384,
  823350349014884433984,
  823350357944054865984,
  673507145437811048514,
  673507154229609627714,
  823350349289728770114,
  823350358081527349314,
  673507145300405649474,
  673507154092204228674,
  823350349152323371074,
  823350357944121950274,
  673507145437777494084,
  673507154229542535234,
  823350349289695215684,
  823350358081460256834,
  673507145300338540614,
  673507153817326338114,
  823350349152256262214,
  823350357669244059714,
  673507145162966696004,
  673507154092103589954,
  823350349014884417604,
  823350357944021311554,
  673507145162933141574,
  673507153817292791874,
  823350349014850863174,
  823350357669210513474,
  673507145025527758914,
  673507154092137119814,
  823350348877445480514,
  823350357944054841414,
  673507145025527750724,
  673507154092103573574,
  823350348877445472324,
  823350357944021295174,
  673507145025494196294,
  673507153817292775494,
  823350348877411917894,
  823350357669210497094,
  673507145435664097344,
  673507145435664097344,
  823350349287581818944,
  823350349287581818944,
  673507145298258698304,
  673507145298258698304,
  823350349150176419904,
  823350349150176419904,
  673507145160819753024,
  673507145298191605824,
  823350349012737474624,
  823350349150109327424,
  673507145435664089154,
  673507145435664089154,
  823350349287581810754,
  823350349287581810754]
def ccsdtqT2cubed_t4_aaaaaaaa_cert_1 : List Nat := [673507145298258690114,
  673507145298258690114,
  823350349150176411714,
  823350349150176411714,
  673507145435630534724,
  673507145435596996674,
  823350349287548256324,
  823350349287514718274,
  673507145298191581254,
  673507145023380799554,
  823350349150109302854,
  823350348875298521154,
  673507145160819736644,
  673507145298158051394,
  823350349012737458244,
  823350349150075772994,
  673507145160786182214,
  673507145023347253314,
  823350349012703903814,
  823350348875264974914,
  673507145023380799554,
  673507145298191581254,
  823350348875298521154,
  823350349150109302854,
  673507145023380791364,
  673507145298158035014,
  823350348875298512964,
  823350349150075756614,
  673507145023347236934,
  673507145023347236934,
  823350348875264958534,
  823350348875264958534,
  821045086816212099264,
  821045086818358534464,
  823350366875472371904,
  823350366877618807104,
  821045086678806700224,
  821045086680953135424,
  823350366738066972864,
  823350366740213408064,
  821045086541367754944,
  821045086680886042944,
  823350366600628027584,
  823350366740146315584,
  821045086816212091074,
  821045086818358526274,
  823350366875472363714,
  823350366877618798914,
  821045086678806692034,
  821045086680953127234,
  823350366738066964674,
  823350366740213399874,
  821045086816178536644,
  821045086818291433794,
  823350366875438809284,
  823350366877551706434,
  821045086678739583174,
  821045086406075236674,
  823350366737999855814,
  823350366465335509314,
  821045086541367738564,
  821045086680852488514,
  823350366600628011204,
  823350366740112761154,
  821045086541334184134,
  821045086406041690434,
  823350366600594456774,
  823350366465301963074,
  821045086403928801474,
  821045086680886018374,
  823350366463189074114,
  823350366740146291014,
  821045086403928793284,
  821045086680852472134,
  823350366463189065924,
  823350366740112744774,
  821045086403895238854,
  821045086406041674054,
  823350366463155511494,
  823350366465301946694,
  821045078020119601344,
  821045069230467457344,
  823350358079379873984,
  823350349289727729984,
  821045077882714202304,
  821045069093062058304,
  823350357941974474944,
  823350349152322330944,
  821045077745275257024,
  821045069092994965824,
  823350357804535529664,
  823350349152255238464,
  821045078020119593154,
  821045069230467449154,
  823350358079379865794,
  823350349289727721794,
  821045077882714194114,
  821045069093062050114,
  823350357941974466754,
  823350349152322322754,
  821045078020086038724,
  821045069230400356674,
  823350358079346311364,
  823350349289660629314,
  821045077882647085254,
  821045068818184159554,
  823350357941907357894,
  823350348877444432194,
  821045077745275240644,
  821045069092961411394,
  823350357804535513284,
  823350349152221684034,
  821045077745241686214,
  821045068818150613314,
  823350357804501958854,
  823350348877410885954,
  821045077607836303554,
  821045069092994941254,
  823350357667096576194,
  823350349152255213894,
  821045077607836295364,
  821045069092961395014,
  823350357667096568004,
  823350349152221667654,
  821045077607802740934,
  821045068818150596934,
  823350357667063013574,
  823350348877410869574,
  821045069224026579264,
  821045069224026579264,
  823350349283286851904,
  823350349283286851904,
  821045069086621180224,
  821045069086621180224,
  823350349145881452864,
  823350349145881452864,
  821045068949182234944,
  821045069086554087744,
  823350349008442507584,
  823350349145814360384,
  821045069224026571074,
  821045069224026571074,
  823350349283286843714,
  823350349283286843714,
  821045069086621172034,
  821045069086621172034,
  823350349145881444674,
  823350349145881444674,
  821045069223993016644,
  821045069223959478594,
  823350349283253289284,
  823350349283219751234,
  821045069086554063174,
  821045068811743281474,
  823350349145814335814,
  823350348871003554114,
  821045068949182218564,
  821045069086520533314,
  823350349008442491204,
  823350349145780805954,
  821045068949148664134,
  821045068811709735234,
  823350349008408936774,
  823350348870970007874,
  821045068811743281474,
  821045069086554063174,
  823350348871003554114,
  823350349145814335814,
  821045068811743273284,
  821045069086520516934,
  823350348871003545924,
  823350349145780789574,
  821045068811709718854,
  821045068811709718854,
  823350348870969991494,
  823350348870969991494,
  673507136641718034624,
  673507154229608063424,
  823350340493635756224,
  823350358081525785024,
  673507136504312635584,
  673507154092202664384,
  823350340356230357184,
  823350357944120385984,
  673507136366873690304,
  673507154092135571904,
  823350340218791411904,
  823350357944053293504,
  673507136641718026434,
  673507154229608055234,
  823350340493635748034,
  823350358081525776834,
  673507136504312627394,
  673507154092202656194,
  823350340356230348994,
  823350357944120377794,
  673507136641684472004,
  673507154229540962754,
  823350340493602193604,
  823350358081458684354,
  673507136504245518534,
  673507153817324765634,
  823350340356163240134,
  823350357669242487234,
  673507136366873673924,
  673507154092102017474,
  823350340218791395524,
  823350357944019739074,
  673507136366840119494,
  673507153817291219394,
  823350340218757841094,
  823350357669208940994,
  673507136229434736834,
  673507154092135547334,
  823350340081352458434,
  823350357944053268934,
  673507136229434728644,
  673507154092102001094,
  823350340081352450244,
  823350357944019722694,
  673507136229401174214,
  673507153817291203014,
  823350340081318895814,
  823350357669208924614,
  673507136639571075264,
  673507145435662524864,
  823350340491488796864,
  823350349287580246464,
  673507136502165676224,
  673507145298257125824,
  823350340354083397824,
  823350349150174847424,
  673507136364726730944,
  673507145298190033344,
  823350340216644452544,
  823350349150107754944,
  673507136639571067074,
  673507145435662516674,
  823350340491488788674,
  823350349287580238274,
  673507136502165668034,
  673507145298257117634,
  823350340354083389634,
  823350349150174839234,
  673507136639537512644,
  673507145435595424194,
  823350340491455234244,
  823350349287513145794,
  673507136502098559174,
  673507145023379227074,
  823350340354016280774,
  823350348875296948674,
  673507136364726714564,
  673507145298156478914,
  823350340216644436164,
  823350349150074200514,
  673507136364693160134,
  673507145023345680834,
  823350340216610881734,
  823350348875263402434,
  673507136227287777474,
  673507145298190008774,
  823350340079205499074,
  823350349150107730374,
  673507136227287769284,
  673507145298156462534,
  823350340079205490884,
  823350349150074184134,
  673507136227254214854,
  673507145023345664454,
  823350340079171936454,
  823350348875263386054,
  673507136637423591744,
  673507145431368606144,
  823350340489341313344,
  823350349283286327744,
  673507136500018192704,
  673507145293963207104,
  823350340351935914304,
  823350349145880928704,
  673507136362579247424,
  673507145293896114624,
  823350340214496969024,
  823350349145813836224,
  673507136637423583554,
  673507145431368597954,
  823350340489341305154,
  823350349283286319554,
  673507136500018184514,
  673507145293963198914,
  823350340351935906114,
  823350349145880920514,
  673507136637390029124,
  673507145431301505474,
  823350340489307750724,
  823350349283219227074,
  673507136499951075654,
  673507145019085308354,
  823350340351868797254,
  823350348871003029954,
  673507136362579231044,
  673507145293862560194,
  823350340214496952644,
  823350349145780281794,
  673507136362545676614,
  673507145019051762114,
  823350340214463398214,
  823350348870969483714,
  673507136225140293954,
  673507145293896090054,
  823350340077058015554,
  823350349145813811654,
  673507136225140285764,
  673507145293862543814,
  823350340077058007364,
  823350349145780265414,
  673507136225106731334,
  673507145019051745734,
  823350340077024452934,
  823350348870969467334,
  823350366879766814784,
  823350366879766814784,
  823350366879733268544,
  823350366879733268544,
  823350366742294323264,
  823350366604922470464,
  823350366879699714114,
  823350366879733252164,
  823350366742260768834,
  823350366604922454084,
  823350366604821815364,
  823350366604821815364,
  675812434293163827264,
  675812434293163827264,
  675812434293130281024,
  675812434293130281024,
  675812434155691335744,
  675812434018319482944,
  675812434293096726594,
  675812434293130264644,
  675812434155657781314,
  675812434018319466564,
  675812434018218827844,
  675812434018218827844,
  823350366877619855424,
  823350366877619855424,
  823350366877586309184,
  823350366877586309184,
  823350366740147363904,
  823350366602775511104,
  823350366877552754754,
  823350366877586292804,
  823350366740113809474,
  823350366602775494724,
  823350366602674856004,
  823350366602674856004,
  823350358081527357504,
  823350349289728778304,
  823350358081493811264,
  823350349289695232064,
  823350357944054865984,
  823350349014884433984,
  823350358081460256834,
  823350349289695215684,
  823350357944021311554,
  823350349014884417604,
  823350357806582358084,
  823350349014783778884,
  675812425497071329344,
  675812434288869908544,
  675812425497037783104,
  675812434288836362304,
  675812425359598837824,
  675812434014025564224,
  675812425497004228674,
  675812434288836345924,
  675812425359565283394,
  675812434014025547844,
  675812425222126329924,
  675812434013924909124,
  675812425494924369984,
  675812425494924369984,
  675812425494890823744,
  675812425494890823744,
  675812425357451878464,
  675812425220080025664,
  675812425494857269314,
  675812425494890807364,
  675812425357418324034,
  675812425220080009284,
  675812425219979370564,
  675812425219979370564,
  823350366875472371904,
  823350366877618807104,
  823350366875438825664,
  823350366877585260864,
  823350366737999880384,
  823350366602774462784,
  823350366875405271234,
  823350366877585244484]
def ccsdtqT2cubed_t4_aaaaaaaa_cert_2 : List Nat := [823350366737966325954,
  823350366602774446404,
  823350366600527372484,
  823350366602673807684,
  823350358079379873984,
  823350349289727729984,
  823350358079346327744,
  823350349289694183744,
  823350357941907382464,
  823350349014883385664,
  823350358079312773314,
  823350349289694167364,
  823350357941873828034,
  823350349014883369284,
  823350357804434874564,
  823350349014782730564,
  823350349283286851904,
  823350349283286851904,
  823350349283253305664,
  823350349283253305664,
  823350349145814360384,
  823350349008442507584,
  823350349283219751234,
  823350349283253289284,
  823350349145780805954,
  823350349008442491204,
  823350349008341852484,
  823350349008341852484,
  675812416700978307264,
  675812434288868336064,
  675812416700944761024,
  675812434288834789824,
  675812416563505815744,
  675812434014023991744,
  675812416700911206594,
  675812434288834773444,
  675812416563472261314,
  675812434014023975364,
  675812416426033307844,
  675812434013923336644,
  675812416698831347904,
  675812425494922797504,
  675812416698797801664,
  675812425494889251264,
  675812416561358856384,
  675812425220078453184,
  675812416698764247234,
  675812425494889234884,
  675812416561325301954,
  675812425220078436804,
  675812416423886348484,
  675812425219977798084,
  675812416696683864384,
  675812425490628878784,
  675812416696650318144,
  675812425490595332544,
  675812416559211372864,
  675812425215784534464,
  675812416696616763714,
  675812425490595316164,
  675812416559177818434,
  675812425215784518084,
  675812416421738864964,
  675812425215683879364,
  823350366879766814784,
  823350366879766814784,
  823350366879766806594,
  823350366879766806594,
  823350366877619855424,
  823350366877619855424,
  823350366877619847234,
  823350366877619847234,
  823350366879766814784,
  823350366879766814784,
  823350366879766806594,
  823350366879766806594,
  823350366879766814784,
  823350366879766814784,
  823350366879699705924,
  823350366879699705924,
  823350366877619855424,
  823350366877619855424,
  823350366877552746564,
  823350366877552746564,
  823350366879766814784,
  823350366879766814784,
  823350366879699705924,
  823350366879699705924,
  823350366879766814784,
  823350366879766814784,
  823350366879733268544,
  823350366879733268544,
  823350366877619855424,
  823350366877619855424,
  823350366877586309184,
  823350366877586309184,
  823350366879766814784,
  823350366879766814784,
  823350366879733268544,
  823350366879733268544,
  823350366879766814784,
  823350366879766814784,
  823350366467449954374,
  823350366467449954374,
  823350366877619855424,
  823350366877619855424,
  823350366465302995014,
  823350366465302995014,
  823350366879766814784,
  823350366879766814784,
  823350366467449954374,
  823350366467449954374,
  823350366879766814784,
  823350366879766814784,
  823350366604888924224,
  823350366604888924224,
  823350366877619855424,
  823350366877619855424,
  823350366602741964864,
  823350366602741964864,
  823350366879766814784,
  823350366879766814784,
  823350366604888924224,
  823350366604888924224,
  823350366879766814784,
  823350366879766814784,
  823350366742361415744,
  823350366742361415744,
  823350366877619855424,
  823350366877619855424,
  823350366740214456384,
  823350366740214456384,
  823350366879766814784,
  823350366879766814784,
  823350366742361415744,
  823350366742361415744,
  823350366879766814784,
  823350366879766814784,
  823350366879766806594,
  823350366879766806594,
  823350366877619855424,
  823350366877619855424,
  823350366877619847234,
  823350366877619847234,
  673507163027849093184,
  673507163027849093184,
  673507163027849084994,
  673507163027849084994,
  673507163025702133824,
  673507163025702133824,
  673507163025702125634,
  673507163025702125634,
  823350366879766814784,
  823350366879766814784,
  823350366742361415744,
  823350366742361415744,
  823350366877619855424,
  823350366877619855424,
  823350366740214456384,
  823350366740214456384,
  673507163027849093184,
  673507163027849093184,
  673507162890443694144,
  673507162890443694144,
  673507163025702133824,
  673507163025702133824,
  673507162888296734784,
  673507162888296734784,
  823350366879766814784,
  823350366879766814784,
  823350366879766806594,
  823350366879766806594,
  823350366879766290624,
  823350366879766290624,
  823350366879766282434,
  823350366879766282434,
  673507163027849093184,
  673507163027849093184,
  673507163027849084994,
  673507163027849084994,
  673507163027848569024,
  673507163027848569024,
  673507163027848560834,
  673507163027848560834,
  823350366879766814784,
  823350366879766814784,
  823350366742361415744,
  823350366742361415744,
  823350366879766290624,
  823350366879766290624,
  823350366742360891584,
  823350366742360891584,
  673507163027849093184,
  673507163027849093184,
  673507162890443694144,
  673507162890443694144,
  673507163027848569024,
  673507163027848569024,
  673507162890443169984,
  673507162890443169984,
  823350366879766814784,
  823350366879766814784,
  823350366879766806594,
  823350366879766806594,
  823350366877619855424,
  823350366877619855424,
  823350366877619847234,
  823350366877619847234,
  673507163027849093184,
  673507163027849093184,
  673507163027849084994,
  673507163027849084994,
  673507163025702133824,
  673507163025702133824,
  673507163025702125634,
  673507163025702125634,
  823350366879766814784,
  823350366879766814784,
  823350366879766806594,
  823350366879766806594,
  823350366879766290624,
  823350366879766290624,
  823350366879766282434,
  823350366879766282434,
  673507163027849093184,
  673507163027849093184,
  673507163027849084994,
  673507163027849084994,
  673507163027848569024,
  673507163027848569024,
  673507163027848560834,
  673507163027848560834,
  823350366879766814784,
  823350366879766814784,
  823350366879699705924,
  823350366879699705924,
  823350366877619855424,
  823350366877619855424,
  823350366877552746564,
  823350366877552746564,
  673507163027849093184,
  673507163027849093184,
  673507163027781984324,
  673507163027781984324,
  673507163025702133824,
  673507163025702133824,
  673507163025635024964,
  673507163025635024964,
  823350366879766814784,
  823350366879766814784,
  823350366879766806594,
  823350366879766806594,
  823350366877619855424,
  823350366877619855424,
  823350366877619847234,
  823350366877619847234,
  673507163027849093184,
  673507163027849093184,
  673507163027849084994,
  673507163027849084994,
  673507163025702133824,
  673507163025702133824,
  673507163025702125634,
  673507163025702125634,
  823350366879766814784,
  823350366879766814784,
  823350366879699705924,
  823350366879699705924,
  823350366879766290624,
  823350366879766290624,
  823350366879699181764,
  823350366879699181764,
  673507163027849093184,
  673507163027849093184,
  673507163027781984324,
  673507163027781984324,
  673507163027848569024,
  673507163027848569024,
  673507163027781460164,
  673507163027781460164,
  823350366879766814784,
  823350366879766814784,
  823350366879766806594,
  823350366879766806594,
  823350366879766290624,
  823350366879766290624,
  823350366879766282434,
  823350366879766282434,
  673507163027849093184,
  673507163027849093184,
  673507163027849084994,
  673507163027849084994,
  673507163027848569024,
  673507163027848569024,
  673507163027848560834,
  673507163027848560834,
  823350366879766814784,
  823350366879766814784,
  823350366879733268544,
  823350366879733268544,
  823350366877619855424,
  823350366877619855424,
  823350366877586309184,
  823350366877586309184,
  673507163027849093184,
  673507163027849093184,
  673507163027815546944,
  673507163027815546944,
  673507163025702133824,
  673507163025702133824,
  673507163025668587584,
  673507163025668587584,
  823350366879766814784,
  823350366879766814784,
  823350366879733268544,
  823350366879733268544,
  823350366879766290624,
  823350366879766290624,
  823350366879732744384,
  823350366879732744384,
  673507163027849093184,
  673507163027849093184,
  673507163027815546944,
  673507163027815546944,
  673507163027848569024,
  673507163027848569024,
  673507163027815022784,
  673507163027815022784,
  823350366879766814784,
  823350366879766814784,
  823350366879766806594,
  823350366879766806594,
  823350366877619855424,
  823350366877619855424,
  823350366877619847234,
  823350366877619847234,
  821045086820506542144,
  821045086820506542144,
  821045086820506533954,
  821045086820506533954,
  821045086818359582784,
  821045086818359582784,
  821045086818359574594,
  821045086818359574594,
  821045086820506542144,
  821045086820506542144,
  821045086820472995904,
  821045086820472995904,
  821045086818359582784,
  821045086818359582784,
  821045086818326036544,
  821045086818326036544,
  823350366879766814784,
  823350366879766814784,
  823350366879766806594,
  823350366879766806594,
  823350366879766290624,
  823350366879766290624,
  823350366879766282434,
  823350366879766282434,
  821045086820506542144,
  821045086820506542144,
  821045086820506533954,
  821045086820506533954,
  821045086820506017984,
  821045086820506017984,
  821045086820506009794,
  821045086820506009794,
  821045086820506542144,
  821045086820506542144,
  821045086820472995904,
  821045086820472995904,
  821045086820506017984,
  821045086820506017984,
  821045086820472471744,
  821045086820472471744,
  823350366879766814784,
  823350366879766814784,
  823350366879699705924,
  823350366879699705924,
  823350366877619855424,
  823350366877619855424,
  823350366877552746564,
  823350366877552746564,
  821045086820506542144,
  821045086820506542144,
  821045086820439433284,
  821045086820439433284,
  821045086818359582784,
  821045086818359582784,
  821045086818292473924,
  821045086818292473924,
  823350366879766814784,
  823350366879766814784,
  823350366879699705924,
  823350366879699705924,
  823350366879766290624,
  823350366879766290624,
  823350366879699181764,
  823350366879699181764]
def ccsdtqT2cubed_t4_aaaaaaaa_cert_3 : List Nat := [821045086820506542144,
  821045086820506542144,
  821045086820439433284,
  821045086820439433284,
  821045086820506017984,
  821045086820506017984,
  821045086820438909124,
  821045086820438909124,
  823350366879766814784,
  823350366879766814784,
  823350366879733268544,
  823350366879733268544,
  823350366877619855424,
  823350366877619855424,
  823350366877586309184,
  823350366877586309184,
  821045086820506542144,
  821045086820506542144,
  821045086820472995904,
  821045086820472995904,
  821045086818359582784,
  821045086818359582784,
  821045086818326036544,
  821045086818326036544,
  821045086820506542144,
  821045086820506542144,
  821045086683101143104,
  821045086683101143104,
  821045086818359582784,
  821045086818359582784,
  821045086680954183744,
  821045086680954183744,
  823350366879766814784,
  823350366879766814784,
  823350366879733268544,
  823350366879733268544,
  823350366879766290624,
  823350366879766290624,
  823350366879732744384,
  823350366879732744384,
  821045086820506542144,
  821045086820506542144,
  821045086820472995904,
  821045086820472995904,
  821045086820506017984,
  821045086820506017984,
  821045086820472471744,
  821045086820472471744,
  821045086820506542144,
  821045086820506542144,
  821045086683101143104,
  821045086683101143104,
  821045086820506017984,
  821045086820506017984,
  821045086683100618944,
  821045086683100618944,
  823350366879766814784,
  823350366879766814784,
  823350366467449954374,
  823350366467449954374,
  823350366877619855424,
  823350366877619855424,
  823350366465302995014,
  823350366465302995014,
  821045086820506542144,
  821045086820506542144,
  821045086408189681734,
  821045086408189681734,
  821045086818359582784,
  821045086818359582784,
  821045086406042722374,
  821045086406042722374,
  821045086820506542144,
  821045086820506542144,
  821045086820439433284,
  821045086820439433284,
  821045086818359582784,
  821045086818359582784,
  821045086818292473924,
  821045086818292473924,
  823350366879766814784,
  823350366879766814784,
  823350366467449954374,
  823350366467449954374,
  823350366879766290624,
  823350366879766290624,
  823350366467449430214,
  823350366467449430214,
  821045086820506542144,
  821045086820506542144,
  821045086408189681734,
  821045086408189681734,
  821045086820506017984,
  821045086820506017984,
  821045086408189157574,
  821045086408189157574,
  821045086820506542144,
  821045086820506542144,
  821045086820439433284,
  821045086820439433284,
  821045086820506017984,
  821045086820506017984,
  821045086820438909124,
  821045086820438909124,
  823350366879766814784,
  823350366879766814784,
  823350366604888924224,
  823350366604888924224,
  823350366877619855424,
  823350366877619855424,
  823350366602741964864,
  823350366602741964864,
  821045086820506542144,
  821045086820506542144,
  821045086545628651584,
  821045086545628651584,
  821045086818359582784,
  821045086818359582784,
  821045086543481692224,
  821045086543481692224,
  823350366879766814784,
  823350366879766814784,
  823350366604888924224,
  823350366604888924224,
  823350366879766290624,
  823350366879766290624,
  823350366604888400064,
  823350366604888400064,
  821045086820506542144,
  821045086820506542144,
  821045086545628651584,
  821045086545628651584,
  821045086820506017984,
  821045086820506017984,
  821045086545628127424,
  821045086545628127424,
  823350366879766814784,
  823350366879766814784,
  823350366742361415744,
  823350366742361415744,
  823350366877619855424,
  823350366877619855424,
  823350366740214456384,
  823350366740214456384,
  821045086820506542144,
  821045086820506542144,
  821045086683101143104,
  821045086683101143104,
  821045086818359582784,
  821045086818359582784,
  821045086680954183744,
  821045086680954183744,
  823350366879766814784,
  823350366879766814784,
  823350366742361415744,
  823350366742361415744,
  823350366879766290624,
  823350366879766290624,
  823350366742360891584,
  823350366742360891584,
  821045086820506542144,
  821045086820506542144,
  821045086683101143104,
  821045086683101143104,
  821045086820506017984,
  821045086820506017984,
  821045086683100618944,
  821045086683100618944,
  823350366879766814784,
  823350366879766814784,
  823350366879766806594,
  823350366879766806594,
  673507163027849093184,
  673507163027849093184,
  673507163027849084994,
  673507163027849084994,
  823350366879766814784,
  823350366879766814784,
  823350366742361415744,
  823350366742361415744,
  673507163027849093184,
  673507163027849093184,
  673507162890443694144,
  673507162890443694144,
  823350366879766814784,
  823350366879766814784,
  823350366879766806594,
  823350366879766806594,
  673507163027849093184,
  673507163027849093184,
  673507163027849084994,
  673507163027849084994,
  823350366879766814784,
  823350366879766814784,
  823350366879699705924,
  823350366879699705924,
  673507163027849093184,
  673507163027849093184,
  673507163027781984324,
  673507163027781984324,
  823350366879766814784,
  823350366879766814784,
  823350366879766806594,
  823350366879766806594,
  673507163027849093184,
  673507163027849093184,
  673507163027849084994,
  673507163027849084994,
  823350366879766814784,
  823350366879766814784,
  823350366879733268544,
  823350366879733268544,
  673507163027849093184,
  673507163027849093184,
  673507163027815546944,
  673507163027815546944,
  823350366879766814784,
  823350366879766814784,
  823350366879766806594,
  823350366879766806594,
  821045086820506542144,
  821045086820506542144,
  821045086820506533954,
  821045086820506533954,
  821045086820506542144,
  821045086820506542144,
  821045086820472995904,
  821045086820472995904,
  823350366879766814784,
  823350366879766814784,
  823350366879699705924,
  823350366879699705924,
  821045086820506542144,
  821045086820506542144,
  821045086820439433284,
  821045086820439433284,
  823350366879766814784,
  823350366879766814784,
  823350366879733268544,
  823350366879733268544,
  821045086820506542144,
  821045086820506542144,
  821045086820472995904,
  821045086820472995904,
  821045086820506542144,
  821045086820506542144,
  821045086683101143104,
  821045086683101143104,
  823350366879766814784,
  823350366879766814784,
  823350366467449954374,
  823350366467449954374,
  821045086820506542144,
  821045086820506542144,
  821045086408189681734,
  821045086408189681734,
  821045086820506542144,
  821045086820506542144,
  821045086820439433284,
  821045086820439433284,
  823350366879766814784,
  823350366879766814784,
  823350366604888924224,
  823350366604888924224,
  821045086820506542144,
  821045086820506542144,
  821045086545628651584,
  821045086545628651584,
  823350366879766814784,
  823350366879766814784,
  823350366742361415744,
  823350366742361415744,
  821045086820506542144,
  821045086820506542144,
  821045086683101143104,
  821045086683101143104,
  823350366879766814784,
  823350366879766814784,
  823350366879766806594,
  823350366879766806594,
  673507163027849093184,
  673507163027849093184,
  673507163027849084994,
  673507163027849084994,
  823350366879766814784,
  823350366879766814784,
  823350366742361415744,
  823350366742361415744,
  673507163027849093184,
  673507163027849093184,
  673507162890443694144,
  673507162890443694144,
  823350366879766814784,
  823350366879766814784,
  823350366879766806594,
  823350366879766806594,
  673507163027849093184,
  673507163027849093184,
  673507163027849084994,
  673507163027849084994,
  823350366879766814784,
  823350366879766814784,
  823350366879699705924,
  823350366879699705924,
  673507163027849093184,
  673507163027849093184,
  673507163027781984324,
  673507163027781984324,
  823350366879766814784,
  823350366879766814784,
  823350366879766806594,
  823350366879766806594,
  673507163027849093184,
  673507163027849093184,
  673507163027849084994,
  673507163027849084994,
  823350366879766814784,
  823350366879766814784,
  823350366879733268544,
  823350366879733268544,
  673507163027849093184,
  673507163027849093184,
  673507163027815546944,
  673507163027815546944,
  823350366879766814784,
  823350366879766814784,
  823350366879766806594,
  823350366879766806594,
  821045086820506542144,
  821045086820506542144,
  821045086820506533954,
  821045086820506533954,
  821045086820506542144,
  821045086820506542144,
  821045086820472995904,
  821045086820472995904,
  823350366879766814784,
  823350366879766814784,
  823350366879699705924,
  823350366879699705924,
  821045086820506542144,
  821045086820506542144,
  821045086820439433284,
  821045086820439433284,
  823350366879766814784,
  823350366879766814784,
  823350366879733268544,
  823350366879733268544,
  821045086820506542144,
  821045086820506542144,
  821045086820472995904,
  821045086820472995904,
  821045086820506542144,
  821045086820506542144,
  821045086683101143104,
  821045086683101143104,
  823350366879766814784,
  823350366879766814784,
  823350366467449954374,
  823350366467449954374,
  821045086820506542144,
  821045086820506542144,
  821045086408189681734,
  821045086408189681734,
  821045086820506542144,
  821045086820506542144,
  821045086820439433284,
  821045086820439433284,
  823350366879766814784,
  823350366879766814784,
  823350366604888924224,
  823350366604888924224,
  821045086820506542144,
  821045086820506542144,
  821045086545628651584,
  821045086545628651584,
  823350366879766814784,
  823350366879766814784,
  823350366742361415744,
  823350366742361415744,
  821045086820506542144,
  821045086820506542144,
  821045086683101143104,
  821045086683101143104]

/-- Check ccsdtqT2cubed_t4_aaaaaaaa. C83 -/
theorem ccsdtqT2cubed_t4_aaaaaaaa : isZeroSpin kinds [aᵥ, bᵥ, cᵥ, dᵥ, iₒ, jₒ, kₒ, lₒ] 4 [false, false, false, false, false, false, false, false]
    (Prog.outs [4, 5, 6, 7, 0, 1, 2, 3] (Prog.thin split_cub_t4 (Prog.part [[23, 39, 39, 39]] (wnT2cubed_toT4_0))))
    (Prog.scale (-1) (ccsdtqT2cubed_t4_aaaaaaaa))
    (ccsdtqT2cubed_t4_aaaaaaaa_cert_0 ++ (ccsdtqT2cubed_t4_aaaaaaaa_cert_1 ++ (ccsdtqT2cubed_t4_aaaaaaaa_cert_2 ++ (ccsdtqT2cubed_t4_aaaaaaaa_cert_3)))) = true := by decide +kernel

def ccsdtqT2cubed_t4_aaabaaab_cert_0 : List Nat := [823350366879766814784,
  823350366879766814784,
  675812443087109365824,
  675812443087109365824,
  823350366879733268544,
  823350366879733268544,
  675812443087075819584,
  675812443087075819584,
  823350366742294323264,
  823350366604922470464,
  823350366879766806594,
  823350366879766806594,
  675812443087109357634,
  675812443087109357634,
  823350366879733252164,
  823350366879699714114,
  675812443087075803204,
  675812443087042265154,
  823350366879699714114,
  823350366879733252164,
  675812443087042265154,
  675812443087075803204,
  823350366742260768834,
  823350366604922454084,
  823350366879699705924,
  823350366879699705924,
  675812443087042256964,
  675812443087042256964,
  823350366604821815364,
  823350366604821815364,
  823350366877619855424,
  823350366877619855424,
  675812443084962406464,
  675812443084962406464,
  823350366877586309184,
  823350366877586309184,
  675812443084928860224,
  675812443084928860224,
  823350366740147363904,
  823350366602775511104,
  823350366877619847234,
  823350366877619847234,
  675812443084962398274,
  675812443084962398274,
  823350366877586292804,
  823350366877552754754,
  675812443084928843844,
  675812443084895305794,
  823350366877552754754,
  823350366877586292804,
  675812443084895305794,
  675812443084928843844,
  823350366740113809474,
  823350366602775494724,
  823350366877552746564,
  823350366877552746564,
  675812443084895297604,
  675812443084895297604,
  823350366602674856004,
  823350366602674856004,
  821045078022267084864,
  821045069230468505664,
  673507154229609635904,
  673507145437811056704,
  821045078022233538624,
  821045069230434959424,
  673507154229576089664,
  673507145437777510464,
  821045078022267076674,
  821045069230468497474,
  673507154229609627714,
  673507145437811048514,
  821045078022233522244,
  821045069230401404994,
  673507154229576073284,
  673507145437743956034,
  821045077884794568774,
  821045068818185207874,
  821045078022199984194,
  821045069230434943044,
  673507154229542535234,
  673507145437777494084,
  821045078022199976004,
  821045069230401396804,
  673507154229542527044,
  673507145437743947844,
  821045077884761022534,
  821045068818185199684,
  821045077747322077254,
  821045068818118107204,
  823350366875472371904,
  823350366877618807104,
  675812443082814922944,
  675812443084961358144,
  823350366875438825664,
  823350366877585260864,
  675812443082781376704,
  675812443084927811904,
  823350366737999880384,
  823350366602774462784,
  823350366875472363714,
  823350366877618798914,
  675812443082814914754,
  675812443084961349954,
  823350366875438809284,
  823350366877551706434,
  675812443082781360324,
  675812443084894257474,
  823350366875405271234,
  823350366877585244484,
  675812443082747822274,
  675812443084927795524,
  823350366737966325954,
  823350366602774446404,
  823350366875405263044,
  823350366877551698244,
  675812443082747814084,
  675812443084894249284,
  823350366600527372484,
  823350366602673807684,
  821045078020119601344,
  821045069230467457344,
  673507154227462152384,
  673507145437810008384,
  821045078020086055104,
  821045069230433911104,
  673507154227428606144,
  673507145437776462144,
  821045078020119593154,
  821045069230467449154,
  673507154227462144194,
  673507145437810000194,
  821045078020086038724,
  821045069230400356674,
  673507154227428589764,
  673507145437742907714,
  821045077882647085254,
  821045068818184159554,
  821045078020052500674,
  821045069230433894724,
  673507154227395051714,
  673507145437776445764,
  821045078020052492484,
  821045069230400348484,
  673507154227395043524,
  673507145437742899524,
  821045077882613539014,
  821045068818184151364,
  821045077745174593734,
  821045068818117058884,
  821045069224026579264,
  821045069224026579264,
  673507145431369130304,
  673507145431369130304,
  821045069223993033024,
  821045069223993033024,
  673507145431335584064,
  673507145431335584064,
  821045069224026571074,
  821045069224026571074,
  673507145431369122114,
  673507145431369122114,
  821045069223993016644,
  821045069223959478594,
  673507145431335567684,
  673507145431302029634,
  821045069086554063174,
  821045068811743281474,
  821045069223959478594,
  821045069223993016644,
  673507145431302029634,
  673507145431335567684,
  821045069223959470404,
  821045069223959470404,
  673507145431302021444,
  673507145431302021444,
  821045069086520516934,
  821045068811743273284,
  821045068949081571654,
  821045068811676180804,
  823350366879766814784,
  823350366879766814784,
  823350366879766814784,
  823350366879766814784,
  675812442949703966784,
  675812442949703966784,
  675812442812265021504,
  675812442949636874304,
  823350366879766806594,
  823350366879766806594,
  823350366879766806594,
  823350366879766806594,
  675812442949703958594,
  675812442949703958594,
  823350366879733252164,
  823350366879699714114,
  823350366879733252164,
  823350366879699714114,
  675812442812265005124,
  675812442949603319874,
  675812442674826068034,
  675812442949636849734,
  675812442674826059844,
  675812442949603303494,
  673507154096498155584,
  673507154096498155584,
  823350357948415877184,
  823350357948415877184,
  673507153959059210304,
  673507154096431063104,
  823350357810976931904,
  823350357948348784704,
  673507154096498147394,
  673507154096498147394,
  823350357948415868994,
  823350357948415868994,
  673507153959059193924,
  673507154096397508674,
  823350357810976915524,
  823350357948315230274,
  673507153821620256834,
  673507154096431038534,
  823350357673537978434,
  823350357948348760134,
  673507153821620248644,
  673507154096397492294,
  823350357673537970244,
  823350357948315213894,
  823350366877619855424,
  823350366877619855424,
  823350366877619855424,
  823350366877619855424,
  675812442947557007424,
  675812442947557007424,
  675812442810118062144,
  675812442947489914944,
  823350366877619847234,
  823350366877619847234,
  823350366877619847234,
  823350366877619847234,
  675812442947556999234,
  675812442947556999234,
  823350366877586292804,
  823350366877552754754,
  823350366877586292804,
  823350366877552754754,
  675812442810118045764,
  675812442947456360514,
  675812442672679108674,
  675812442947489890374,
  675812442672679100484,
  675812442947456344134,
  821045078022267084864,
  821045069230468505664,
  673507154092204236864,
  673507145300405657664,
  823350357944121958464,
  823350349152323379264,
  673507153954765291584,
  673507145300338565184,
  823350357806683013184,
  823350349152256286784,
  821045078022267076674,
  821045069230468497474,
  673507154092204228674,
  673507145300405649474,
  823350357944121950274,
  823350349152323371074,
  821045078022233522244,
  821045069230401404994,
  821045077884794568774,
  821045068818185207874,
  823350357944054841414,
  823350348877445480514,
  673507153954765275204,
  673507145300305010754,
  823350357806682996804,
  823350349152222732354,
  821045077747389169734,
  821045068818151661634,
  823350357806649442374,
  823350348877411934274,
  673507153817326338114,
  673507145300338540614,
  823350357669244059714,
  823350349152256262214,
  673507153817326329924,
  673507145300304994374,
  823350357669244051524,
  823350349152222715974,
  821045077609950224454,
  821045068818151645254,
  823350357669210497094,
  823350348877411917894,
  673507145300405657664,
  673507154092204236864,
  823350349152323379264,
  823350357944121958464,
  673507145162966712384,
  673507154092137144384,
  823350349014884433984,
  823350357944054865984,
  673507145300405649474,
  673507154092204228674,
  823350349152323371074,
  823350357944121950274,
  673507145162966696004,
  673507154092103589954,
  823350349014884417604,
  823350357944021311554,
  673507145025527758914,
  673507154092137119814,
  823350348877445480514,
  823350357944054841414,
  673507145025527750724,
  673507154092103573574,
  823350348877445472324,
  823350357944021295174,
  821045069228321546304,
  821045069228321546304,
  673507145298258698304,
  673507145298258698304,
  675812425357518970944,
  675812425357518970944,
  673507145160819753024,
  673507145298191605824,
  675812425220080025664,
  675812425357451878464,
  821045069228321538114,
  821045069228321538114,
  673507145298258690114,
  673507145298258690114,
  675812425357518962754,
  675812425357518962754,
  821045069228287983684,
  821045069228254445634,
  673507145298191581254,
  673507145023380799554,
  823350349150109302854,
  823350348875298521154,
  673507145160819736644,
  673507145298158051394,
  675812425220080009284,
  675812425357418324034,
  673507145160786182214,
  673507145023347253314,
  823350349012703903814,
  823350348875264974914,
  673507145023380799554,
  673507145298191581254,
  675812425082641072194,
  675812425357451853894,
  673507145023380791364,
  673507145298158035014,
  675812425082641064004,
  675812425357418307654,
  673507145023347236934,
  673507145023347236934,
  823350348875264958534,
  823350348875264958534,
  823350366875472371904,
  823350366877618807104,
  823350366875472371904,
  823350366877618807104,
  675812442945409523904,
  675812442947555959104,
  675812442807970578624,
  675812442947488866624,
  823350366875472363714,
  823350366877618798914,
  823350366875472363714,
  823350366877618798914,
  675812442945409515714,
  675812442947555950914,
  823350366875438809284,
  823350366877551706434,
  823350366875438809284,
  823350366877551706434,
  675812442807970562244,
  675812442947455312194,
  675812442670531625154,
  675812442947488842054,
  675812442670531616964,
  675812442947455295814,
  821045078020119601344,
  821045069230467457344,
  673507154090056753344,
  673507145300404609344,
  823350357941974474944,
  823350349152322330944,
  673507153952617808064,
  673507145300337516864,
  823350357804535529664,
  823350349152255238464,
  821045078020119593154,
  821045069230467449154,
  673507154090056745154,
  673507145300404601154,
  823350357941974466754,
  823350349152322322754]
def ccsdtqT2cubed_t4_aaabaaab_cert_1 : List Nat := [821045078020086038724,
  821045069230400356674,
  821045077882647085254,
  821045068818184159554,
  823350357941907357894,
  823350348877444432194,
  673507153952617791684,
  673507145300303962434,
  823350357804535513284,
  823350349152221684034,
  821045077745241686214,
  821045068818150613314,
  823350357804501958854,
  823350348877410885954,
  673507153815178854594,
  673507145300337492294,
  823350357667096576194,
  823350349152255213894,
  673507153815178846404,
  673507145300303946054,
  823350357667096568004,
  823350349152221667654,
  821045077607802740934,
  821045068818150596934,
  823350357667063013574,
  823350348877410869574,
  821045069224026579264,
  821045069224026579264,
  673507145293963731264,
  673507145293963731264,
  821045069086621180224,
  821045069086621180224,
  673507145156524785984,
  673507145293896638784,
  821045068949182234944,
  821045069086554087744,
  821045069224026571074,
  821045069224026571074,
  673507145293963723074,
  673507145293963723074,
  821045069086621172034,
  821045069086621172034,
  821045069223993016644,
  821045069223959478594,
  821045069086554063174,
  821045068811743281474,
  823350349145814335814,
  823350348871003554114,
  673507145156524769604,
  673507145293863084354,
  821045068949182218564,
  821045069086520533314,
  821045068949148664134,
  821045068811709735234,
  823350349008408936774,
  823350348870970007874,
  673507145019085832514,
  673507145293896614214,
  821045068811743281474,
  821045069086554063174,
  673507145019085824324,
  673507145293863067974,
  821045068811743273284,
  821045069086520516934,
  821045068811709718854,
  821045068811709718854,
  823350348870969991494,
  823350348870969991494,
  673507136504312635584,
  673507154092202664384,
  823350340356230357184,
  823350357944120385984,
  673507136366873690304,
  673507154092135571904,
  823350340218791411904,
  823350357944053293504,
  673507136504312627394,
  673507154092202656194,
  823350340356230348994,
  823350357944120377794,
  673507136366873673924,
  673507154092102017474,
  823350340218791395524,
  823350357944019739074,
  673507136229434736834,
  673507154092135547334,
  823350340081352458434,
  823350357944053268934,
  673507136229434728644,
  673507154092102001094,
  823350340081352450244,
  823350357944019722694,
  821045060432228524224,
  821045069228319973824,
  673507136502165676224,
  673507145298257125824,
  673507136502165676224,
  673507145298257125824,
  673507136364726730944,
  673507145298190033344,
  673507136364726730944,
  673507145298190033344,
  821045060432228516034,
  821045069228319965634,
  673507136502165668034,
  673507145298257117634,
  673507136502165668034,
  673507145298257117634,
  821045060432194961604,
  821045069228252873154,
  673507136502098559174,
  673507145023379227074,
  823350340354016280774,
  823350348875296948674,
  673507136364726714564,
  673507145298156478914,
  673507136364726714564,
  673507145298156478914,
  673507136364693160134,
  673507145023345680834,
  823350340216610881734,
  823350348875263402434,
  673507136227287777474,
  673507145298190008774,
  673507136227287777474,
  673507145298190008774,
  673507136227287769284,
  673507145298156462534,
  673507136227287769284,
  673507145298156462534,
  673507136227254214854,
  673507145023345664454,
  823350340079171936454,
  823350348875263386054,
  821045060430081040704,
  821045069224026055104,
  673507136500018192704,
  673507145293963207104,
  673507136500018192704,
  673507145293963207104,
  673507136362579247424,
  673507145293896114624,
  673507136362579247424,
  673507145293896114624,
  821045060430081032514,
  821045069224026046914,
  673507136500018184514,
  673507145293963198914,
  673507136500018184514,
  673507145293963198914,
  821045060430047478084,
  821045069223958954434,
  673507136499951075654,
  673507145019085308354,
  823350340351868797254,
  823350348871003029954,
  673507136362579231044,
  673507145293862560194,
  673507136362579231044,
  673507145293862560194,
  673507136362545676614,
  673507145019051762114,
  823350340214463398214,
  823350348870969483714,
  673507136225140293954,
  673507145293896090054,
  673507136225140293954,
  673507145293896090054,
  673507136225140285764,
  673507145293862543814,
  673507136225140285764,
  673507145293862543814,
  673507136225106731334,
  673507145019051745734,
  823350340077024452934,
  823350348870969467334,
  823350366879766814784,
  823350366879766814784,
  823350366879733268544,
  823350366879733268544,
  823350366879699714114,
  823350366879733252164,
  675812434155691335744,
  675812434018319482944,
  675812434155657781314,
  675812434018319466564,
  675812434018218827844,
  675812434018218827844,
  823350366877619855424,
  823350366877619855424,
  823350366877586309184,
  823350366877586309184,
  823350366877552754754,
  823350366877586292804,
  823350358081527357504,
  823350349289728778304,
  821045078022267084864,
  821045069230468505664,
  823350358081493811264,
  823350349289695232064,
  821045078022233538624,
  821045069230434959424,
  675812434151397417024,
  675812425222226985024,
  673507154092137144384,
  673507145162966712384,
  823350358081460256834,
  823350349289695215684,
  821045078022199984194,
  821045069230434943044,
  675812434151363862594,
  675812425222226968644,
  673507154092103589954,
  673507145162966696004,
  675812434013924909124,
  675812425222126329924,
  673507153954664636484,
  673507145162866057284,
  675812425359598837824,
  675812434014025564224,
  675812425359565283394,
  675812434014025547844,
  675812425222126329924,
  675812434013924909124,
  823350349287581818944,
  823350349287581818944,
  821045069228321546304,
  821045069228321546304,
  823350349287548272704,
  823350349287548272704,
  821045069228288000064,
  821045069228288000064,
  675812425357451878464,
  675812425220080025664,
  673507145298191605824,
  673507145160819753024,
  823350349287514718274,
  823350349287548256324,
  821045069228254445634,
  821045069228287983684,
  675812425357418324034,
  675812425220080009284,
  673507145298158051394,
  673507145160819736644,
  675812425219979370564,
  675812425219979370564,
  673507145160719097924,
  673507145160719097924,
  823350366875472371904,
  823350366877618807104,
  823350366875438825664,
  823350366877585260864,
  823350366875405271234,
  823350366877585244484,
  823350358079379873984,
  823350349289727729984,
  821045078020119601344,
  821045069230467457344,
  823350358079346327744,
  823350349289694183744,
  821045078020086055104,
  821045069230433911104,
  675812434149249933504,
  675812425222225936704,
  673507154089989660864,
  673507145162965664064,
  823350358079312773314,
  823350349289694167364,
  821045078020052500674,
  821045069230433894724,
  675812434149216379074,
  675812425222225920324,
  673507154089956106434,
  673507145162965647684,
  675812434011777425604,
  675812425222125281604,
  673507153952517152964,
  673507145162865008964,
  823350349283286851904,
  823350349283286851904,
  821045069224026579264,
  821045069224026579264,
  823350349283253305664,
  823350349283253305664,
  821045069223993033024,
  821045069223993033024,
  675812425353156911424,
  675812425215785058624,
  673507145293896638784,
  673507145156524785984,
  823350349283219751234,
  823350349283253289284,
  821045069223959478594,
  821045069223993016644,
  675812425353123356994,
  675812425215785042244,
  673507145293863084354,
  673507145156524769604,
  675812425215684403524,
  675812425215684403524,
  673507145156424130884,
  673507145156424130884,
  675812416563505815744,
  675812434014023991744,
  675812416563472261314,
  675812434014023975364,
  675812416426033307844,
  675812434013923336644,
  823350340491488796864,
  823350349287580246464,
  821045060432228524224,
  821045069228319973824,
  823350340491455250624,
  823350349287546700224,
  821045060432194977984,
  821045069228286427584,
  675812416561358856384,
  675812425220078453184,
  673507136502098583744,
  673507145160818180544,
  823350340491421696194,
  823350349287546683844,
  821045060432161423554,
  821045069228286411204,
  675812416561325301954,
  675812425220078436804,
  673507136502065029314,
  673507145160818164164,
  675812416423886348484,
  675812425219977798084,
  673507136364626075844,
  673507145160717525444,
  823350340489341313344,
  823350349283286327744,
  821045060430081040704,
  821045069224026055104,
  823350340489307767104,
  823350349283252781504,
  821045060430047494464,
  821045069223992508864,
  675812416559211372864,
  675812425215784534464,
  673507136499951100224,
  673507145156524261824,
  823350340489274212674,
  823350349283252765124,
  821045060430013940034,
  821045069223992492484,
  675812416559177818434,
  675812425215784518084,
  673507136499917545794,
  673507145156524245444,
  675812416421738864964,
  675812425215683879364,
  673507136362478592324,
  673507145156423606724,
  823350366879766814784,
  823350366879766814784,
  823350366879766806594,
  823350366879766806594,
  823350366877619855424,
  823350366877619855424,
  823350366877619847234,
  823350366877619847234,
  675812443087109365824,
  675812443087109365824,
  675812443087109357634,
  675812443087109357634,
  675812443084962406464,
  675812443084962406464,
  675812443084962398274,
  675812443084962398274,
  821045086820506542144,
  821045086820506542144,
  821045086820506533954,
  821045086820506533954,
  673507163027849093184,
  673507163027849093184,
  673507163027849084994,
  673507163027849084994,
  823350366879766814784,
  823350366879766814784,
  823350366879699705924,
  823350366879699705924,
  823350366877619855424,
  823350366877619855424,
  823350366877552746564,
  823350366877552746564,
  675812443087109365824,
  675812443087109365824,
  675812443087042256964,
  675812443087042256964,
  675812443084962406464,
  675812443084962406464,
  675812443084895297604,
  675812443084895297604,
  821045086820506542144,
  821045086820506542144,
  821045086820439433284,
  821045086820439433284]
def ccsdtqT2cubed_t4_aaabaaab_cert_2 : List Nat := [673507163027849093184,
  673507163027849093184,
  673507163027781984324,
  673507163027781984324,
  823350366879766814784,
  823350366879766814784,
  823350366879733268544,
  823350366879733268544,
  823350366877619855424,
  823350366877619855424,
  823350366877586309184,
  823350366877586309184,
  675812443087109365824,
  675812443087109365824,
  675812443087075819584,
  675812443087075819584,
  675812443084962406464,
  675812443084962406464,
  675812443084928860224,
  675812443084928860224,
  821045086820506542144,
  821045086820506542144,
  821045086820472995904,
  821045086820472995904,
  673507163027849093184,
  673507163027849093184,
  673507163027815546944,
  673507163027815546944,
  823350366879766814784,
  823350366879766814784,
  823350366877619855424,
  823350366877619855424,
  821045086820506542144,
  821045086820506542144,
  823350366879766814784,
  823350366879766814784,
  823350366877619855424,
  823350366877619855424,
  821045086820506542144,
  821045086820506542144,
  823350366879766814784,
  823350366879766814784,
  823350366877619855424,
  823350366877619855424,
  821045086820506542144,
  821045086820506542144,
  675812443087109365824,
  675812443087109365824,
  675812443087109357634,
  675812443087109357634,
  675812443084962406464,
  675812443084962406464,
  675812443084962398274,
  675812443084962398274,
  675812443087109365824,
  675812443087109365824,
  675812443084962406464,
  675812443084962406464,
  823350366879766814784,
  823350366879766814784,
  823350366877619855424,
  823350366877619855424,
  673507163027849093184,
  673507163027849093184,
  673507163025702133824,
  673507163025702133824,
  823350366879766814784,
  823350366879766814784,
  823350366879766806594,
  823350366879766806594,
  823350366877619855424,
  823350366877619855424,
  823350366877619847234,
  823350366877619847234,
  823350366879766814784,
  823350366879766814784,
  823350366879766806594,
  823350366879766806594,
  823350366877619855424,
  823350366877619855424,
  823350366877619847234,
  823350366877619847234,
  823350366879766814784,
  823350366879766814784,
  823350366879766806594,
  823350366879766806594,
  823350366879766290624,
  823350366879766290624,
  823350366879766282434,
  823350366879766282434,
  673507163027849093184,
  673507163027849093184,
  673507163027849084994,
  673507163027849084994,
  673507163027848569024,
  673507163027848569024,
  673507163027848560834,
  673507163027848560834,
  823350366879766814784,
  823350366879766814784,
  823350366879699705924,
  823350366879699705924,
  823350366877619855424,
  823350366877619855424,
  823350366877552746564,
  823350366877552746564,
  823350366879766814784,
  823350366879766814784,
  823350366879699705924,
  823350366879699705924,
  823350366877619855424,
  823350366877619855424,
  823350366877552746564,
  823350366877552746564,
  823350366879766814784,
  823350366879766814784,
  823350366879766806594,
  823350366879766806594,
  823350366877619855424,
  823350366877619855424,
  823350366877619847234,
  823350366877619847234,
  673507163027849093184,
  673507163027849093184,
  673507163027849084994,
  673507163027849084994,
  673507163025702133824,
  673507163025702133824,
  673507163025702125634,
  673507163025702125634,
  823350366879766814784,
  823350366879766814784,
  823350366879699705924,
  823350366879699705924,
  823350366879766290624,
  823350366879766290624,
  823350366879699181764,
  823350366879699181764,
  673507163027849093184,
  673507163027849093184,
  673507163027781984324,
  673507163027781984324,
  673507163027848569024,
  673507163027848569024,
  673507163027781460164,
  673507163027781460164,
  823350366879766814784,
  823350366879766814784,
  823350366879733268544,
  823350366879733268544,
  823350366877619855424,
  823350366877619855424,
  823350366877586309184,
  823350366877586309184,
  823350366879766814784,
  823350366879766814784,
  823350366879733268544,
  823350366879733268544,
  823350366877619855424,
  823350366877619855424,
  823350366877586309184,
  823350366877586309184,
  823350366879766814784,
  823350366879766814784,
  823350366879733268544,
  823350366879733268544,
  823350366879766290624,
  823350366879766290624,
  823350366879732744384,
  823350366879732744384,
  673507163027849093184,
  673507163027849093184,
  673507163027815546944,
  673507163027815546944,
  673507163027848569024,
  673507163027848569024,
  673507163027815022784,
  673507163027815022784,
  675812443087109365824,
  675812443087109365824,
  675812443087109357634,
  675812443087109357634,
  675812443084962406464,
  675812443084962406464,
  675812443084962398274,
  675812443084962398274,
  823350366879766814784,
  823350366879766814784,
  823350366879766806594,
  823350366879766806594,
  821045086818359582784,
  821045086818359582784,
  821045086818359574594,
  821045086818359574594,
  673507163027849093184,
  673507163027849093184,
  673507163027815546944,
  673507163027815546944,
  673507163025702133824,
  673507163025702133824,
  673507163025668587584,
  673507163025668587584,
  675812443087109365824,
  675812443087109365824,
  675812443087075819584,
  675812443087075819584,
  675812443084962406464,
  675812443084962406464,
  675812443084928860224,
  675812443084928860224,
  673507163027849093184,
  673507163027849093184,
  673507163027849084994,
  673507163027849084994,
  673507163027848569024,
  673507163027848569024,
  673507163027848560834,
  673507163027848560834,
  675812443087109365824,
  675812443087109365824,
  675812443087042256964,
  675812443087042256964,
  675812443084962406464,
  675812443084962406464,
  675812443084895297604,
  675812443084895297604,
  823350366879766814784,
  823350366879766814784,
  823350366879699705924,
  823350366879699705924,
  821045086818359582784,
  821045086818359582784,
  821045086818292473924,
  821045086818292473924,
  673507163027849093184,
  673507163027849093184,
  673507163027781984324,
  673507163027781984324,
  673507163027848569024,
  673507163027848569024,
  673507163027781460164,
  673507163027781460164,
  675812443087109365824,
  675812443087109365824,
  675812443087075819584,
  675812443087075819584,
  675812443084962406464,
  675812443084962406464,
  675812443084928860224,
  675812443084928860224,
  823350366879766814784,
  823350366879766814784,
  823350366879733268544,
  823350366879733268544,
  821045086818359582784,
  821045086818359582784,
  821045086818326036544,
  821045086818326036544,
  673507163027849093184,
  673507163027849093184,
  673507163025702133824,
  673507163025702133824,
  675812443087109365824,
  675812443087109365824,
  675812443084962406464,
  675812443084962406464,
  821045086820506542144,
  821045086820506542144,
  821045086818359582784,
  821045086818359582784,
  823350366879766814784,
  823350366879766814784,
  823350366877619855424,
  823350366877619855424,
  673507163027849093184,
  673507163027849093184,
  673507163027815546944,
  673507163027815546944,
  673507163027848569024,
  673507163027848569024,
  673507163027815022784,
  673507163027815022784,
  821045086820506542144,
  821045086820506542144,
  821045086820506017984,
  821045086820506017984,
  823350366879766814784,
  823350366879766814784,
  823350366877619855424,
  823350366877619855424,
  823350366879766814784,
  823350366879766814784,
  823350366877619855424,
  823350366877619855424,
  821045086820506542144,
  821045086820506542144,
  821045086818359582784,
  821045086818359582784,
  821045086820506542144,
  821045086820506542144,
  821045086820439433284,
  821045086820439433284,
  821045086818359582784,
  821045086818359582784,
  821045086818292473924,
  821045086818292473924,
  823350366879766814784,
  823350366879766814784,
  823350366879699705924,
  823350366879699705924,
  823350366877619855424,
  823350366877619855424,
  823350366877552746564,
  823350366877552746564,
  821045086820506542144,
  821045086820506542144,
  821045086820506017984,
  821045086820506017984,
  821045086820506542144,
  821045086820506542144,
  821045086820506017984,
  821045086820506017984,
  821045086820506542144,
  821045086820506542144,
  821045086820439433284,
  821045086820439433284,
  821045086820506017984,
  821045086820506017984,
  821045086820438909124,
  821045086820438909124,
  823350366879766814784,
  823350366879766814784,
  823350366877619855424,
  823350366877619855424,
  823350366879766814784,
  823350366879766814784,
  823350366877619855424,
  823350366877619855424,
  821045086820506542144,
  821045086820506542144,
  821045086818359582784,
  821045086818359582784,
  821045086820506542144,
  821045086820506542144,
  821045086820506017984,
  821045086820506017984,
  821045086820506542144,
  821045086820506542144,
  821045086820506017984,
  821045086820506017984,
  823350366879766814784,
  823350366879766814784,
  823350366877619855424,
  823350366877619855424,
  823350366879766814784,
  823350366879766814784,
  823350366877619855424,
  823350366877619855424,
  821045086820506542144,
  821045086820506542144,
  821045086818359582784,
  821045086818359582784,
  821045086820506542144,
  821045086820506542144,
  821045086820506017984,
  821045086820506017984,
  821045086820506542144,
  821045086820506542144,
  821045086820506017984,
  821045086820506017984,
  675812443087109365824,
  675812443087109365824,
  675812443087109357634,
  675812443087109357634,
  675812443087109365824,
  675812443087109365824,
  823350366879766814784,
  823350366879766814784,
  673507163027849093184,
  673507163027849093184,
  823350366879766814784,
  823350366879766814784,
  823350366879766806594,
  823350366879766806594,
  821045086820506542144,
  821045086820506542144,
  821045086820506533954,
  821045086820506533954,
  823350366879766814784,
  823350366879766814784,
  823350366879699705924,
  823350366879699705924,
  821045086820506542144,
  821045086820506542144,
  821045086820439433284,
  821045086820439433284,
  823350366879766814784,
  823350366879766814784,
  823350366879766806594,
  823350366879766806594]
def ccsdtqT2cubed_t4_aaabaaab_cert_3 : List Nat := [673507163027849093184,
  673507163027849093184,
  673507163027849084994,
  673507163027849084994,
  823350366879766814784,
  823350366879766814784,
  823350366879733268544,
  823350366879733268544,
  821045086820506542144,
  821045086820506542144,
  821045086820472995904,
  821045086820472995904,
  675812443087109365824,
  675812443087109365824,
  675812443087109357634,
  675812443087109357634,
  821045086820506542144,
  821045086820506542144,
  821045086820506533954,
  821045086820506533954,
  673507163027849093184,
  673507163027849093184,
  673507163027815546944,
  673507163027815546944,
  675812443087109365824,
  675812443087109365824,
  675812443087075819584,
  675812443087075819584,
  675812443087109365824,
  675812443087109365824,
  675812443087042256964,
  675812443087042256964,
  821045086820506542144,
  821045086820506542144,
  821045086820439433284,
  821045086820439433284,
  675812443087109365824,
  675812443087109365824,
  675812443087075819584,
  675812443087075819584,
  821045086820506542144,
  821045086820506542144,
  821045086820472995904,
  821045086820472995904,
  673507163027849093184,
  673507163027849093184,
  675812443087109365824,
  675812443087109365824,
  821045086820506542144,
  821045086820506542144,
  823350366879766814784,
  823350366879766814784,
  823350366879766814784,
  823350366879766814784,
  823350366879766814784,
  823350366879766814784,
  821045086820506542144,
  821045086820506542144,
  821045086820506542144,
  821045086820506542144,
  821045086820439433284,
  821045086820439433284,
  823350366879766814784,
  823350366879766814784,
  823350366879699705924,
  823350366879699705924,
  823350366879766814784,
  823350366879766814784,
  823350366879766814784,
  823350366879766814784,
  821045086820506542144,
  821045086820506542144,
  823350366879766814784,
  823350366879766814784,
  823350366879766814784,
  823350366879766814784,
  821045086820506542144,
  821045086820506542144,
  823350366879766814784,
  823350366879766814784,
  823350366879766806594,
  823350366879766806594,
  673507163027849093184,
  673507163027849093184,
  673507163027849084994,
  673507163027849084994,
  823350366879766814784,
  823350366879766814784,
  823350366879699705924,
  823350366879699705924,
  673507163027849093184,
  673507163027849093184,
  673507163027781984324,
  673507163027781984324,
  823350366879766814784,
  823350366879766814784,
  823350366879733268544,
  823350366879733268544,
  673507163027849093184,
  673507163027849093184,
  673507163027815546944,
  673507163027815546944,
  673507163027849093184,
  673507163027849093184,
  673507163027849084994,
  673507163027849084994,
  673507163027849093184,
  673507163027849093184,
  673507163027781984324,
  673507163027781984324,
  673507163027849093184,
  673507163027849093184,
  673507163027815546944,
  673507163027815546944,
  821045086820506542144,
  821045086820506542144,
  821045086820506542144,
  821045086820506542144,
  821045086820506542144,
  821045086820506542144,
  821045086820506542144,
  821045086820506542144,
  821045086820439433284,
  821045086820439433284,
  821045086820506542144,
  821045086820506542144,
  821045086820506542144,
  821045086820506542144,
  821045086820506542144,
  821045086820506542144,
  821045086820506542144,
  821045086820506542144]

/-- Check ccsdtqT2cubed_t4_aaabaaab. C83 -/
theorem ccsdtqT2cubed_t4_aaabaaab : isZeroSpin kinds [aᵥ, bᵥ, cᵥ, dᵥ, iₒ, jₒ, kₒ, lₒ] 4 [false, false, false, true, false, false, false, true]
    (Prog.outs [4, 5, 6, 7, 0, 1, 2, 3] (Prog.thin split_cub_t4 (Prog.part [[23, 39, 39, 39]] (wnT2cubed_toT4_0))))
    (Prog.scale (-1) (ccsdtqT2cubed_t4_aaabaaab))
    (ccsdtqT2cubed_t4_aaabaaab_cert_0 ++ (ccsdtqT2cubed_t4_aaabaaab_cert_1 ++ (ccsdtqT2cubed_t4_aaabaaab_cert_2 ++ (ccsdtqT2cubed_t4_aaabaaab_cert_3)))) = true := by decide +kernel

def ccsdtqT2cubed_t4_aabbaabb_cert_0 : List Nat := [823350366879733268544,
  823350366879733268544,
  675812443087075819584,
  675812443087075819584,
  823350366742294323264,
  823350366604922470464,
  675812442949636874304,
  675812442812265021504,
  823350366879699714114,
  823350366879733252164,
  675812443087042265154,
  675812443087075803204,
  823350366742260768834,
  823350366604922454084,
  675812442949603319874,
  675812442812265005124,
  823350366877619855424,
  823350366877619855424,
  821045086818326036544,
  821045086818326036544,
  673507163025668587584,
  673507163025668587584,
  821045086680887091264,
  821045086543515238464,
  673507162888229642304,
  673507162750857789504,
  823350366877619847234,
  823350366877619847234,
  823350366877586292804,
  823350366877552754754,
  675812443084928843844,
  675812443084895305794,
  823350366740147339334,
  823350366465336557634,
  675812442947489890374,
  675812442672679108674,
  821045086818292482114,
  821045086818326020164,
  673507163025635033154,
  673507163025668571204,
  821045086680853536834,
  821045086543515222084,
  673507162888196087874,
  673507162750857773124,
  823350366877552746564,
  823350366877552746564,
  675812443084895297604,
  675812443084895297604,
  823350366740113793094,
  823350366465336549444,
  675812442947456344134,
  675812442672679100484,
  823350366602674856004,
  823350366602674856004,
  823350366602674847814,
  823350366465269456964,
  823350358081527357504,
  823350349289728778304,
  821045078022233538624,
  821045069230434959424,
  673507154229576089664,
  673507145437777510464,
  821045077884794593344,
  821045068955624161344,
  673507154092137144384,
  673507145162966712384,
  823350358081527349314,
  823350349289728770114,
  823350358081493794884,
  823350349289661677634,
  675812434288836345924,
  675812425497004228674,
  823350357944054841414,
  823350348877445480514,
  675812434151397392454,
  675812425084788031554,
  821045078022199984194,
  821045069230434943044,
  673507154229542535234,
  673507145437777494084,
  821045077884761038914,
  821045068955624144964,
  673507154092103589954,
  673507145162966696004,
  823350358081460248644,
  823350349289661669444,
  675812434288802799684,
  675812425497004220484,
  823350357944021295174,
  823350348877445472324,
  675812434151363846214,
  675812425084788023364,
  823350357806582358084,
  823350349014783778884,
  823350357806582349894,
  823350348877378379844,
  821045086816212099264,
  821045086818358534464,
  821045086816178553024,
  821045086818324988224,
  673507163023521104064,
  673507163025667539264,
  821045086678739607744,
  821045086543514190144,
  673507162886082158784,
  673507162750856741184,
  821045086816212091074,
  821045086818358526274,
  823350366875438809284,
  823350366877551706434,
  675812443082781360324,
  675812443084894257474,
  823350366737999855814,
  823350366465335509314,
  675812442945342406854,
  675812442672678060354,
  821045086816144998594,
  821045086818324971844,
  673507163023487549634,
  673507163025667522884,
  821045086678706053314,
  821045086543514173764,
  673507162886048604354,
  673507162750856724804,
  823350366875405263044,
  823350366877551698244,
  675812443082747814084,
  675812443084894249284,
  823350366737966309574,
  823350366465335501124,
  675812442945308860614,
  675812442672678052164,
  821045086541267099844,
  821045086543413535044,
  821045086541267091654,
  821045086406008136004,
  821045078020119601344,
  821045069230467457344,
  821045078020086055104,
  821045069230433911104,
  673507154227428606144,
  673507145437776462144,
  821045077882647109824,
  821045068955623113024,
  673507154089989660864,
  673507145162965664064,
  821045078020119593154,
  821045069230467449154,
  823350358079346311364,
  823350349289660629314,
  675812434286688862404,
  675812425497003180354,
  823350357941907357894,
  823350348877444432194,
  675812434149249908934,
  675812425084786983234,
  821045078020052500674,
  821045069230433894724,
  673507154227395051714,
  673507145437776445764,
  821045077882613555394,
  821045068955623096644,
  673507154089956106434,
  673507145162965647684,
  823350358079312765124,
  823350349289660621124,
  675812434286655316164,
  675812425497003172164,
  823350357941873811654,
  823350348877444424004,
  675812434149216362694,
  675812425084786975044,
  821045077745174601924,
  821045068955522457924,
  821045077745174593734,
  821045068818117058884,
  821045069223993016644,
  821045069223959478594,
  673507145431335567684,
  673507145431302029634,
  821045069086554063174,
  821045068811743281474,
  673507145293896614214,
  673507145019085832514,
  821045069223959470404,
  821045069223959470404,
  673507145431302021444,
  673507145431302021444,
  821045069086520516934,
  821045068811743273284,
  673507145293863067974,
  673507145019085824324,
  823350366879766814784,
  823350366879766814784,
  823350366879766814784,
  823350366879766814784,
  823350366742361415744,
  823350366742361415744,
  823350366742361415744,
  823350366742361415744,
  675812442812265021504,
  675812442949636874304,
  823350366879766806594,
  823350366879766806594,
  823350366879766806594,
  823350366879766806594,
  823350366742361407554,
  823350366742361407554,
  823350366742361407554,
  823350366742361407554,
  675812442674826068034,
  675812442949636849734,
  675812434293163827264,
  675812434293163827264,
  823350358085821276224,
  823350358085821276224,
  675812434155758428224,
  675812434155758428224,
  823350357948415877184,
  823350357948415877184,
  675812434018319482944,
  675812434155691335744,
  675812434293163819074,
  675812434293163819074,
  823350358085821268034,
  823350358085821268034,
  675812434155758420034,
  675812434155758420034,
  823350357948415868994,
  823350357948415868994,
  675812433880880529474,
  675812434155691311174,
  673507163025702133824,
  673507163025702133824,
  823350366877619855424,
  823350366877619855424,
  673507162888296734784,
  673507162888296734784,
  823350366740214456384,
  823350366740214456384,
  673507163025702125634,
  673507163025702125634,
  823350366877619847234,
  823350366877619847234,
  673507162888296726594,
  673507162888296726594,
  823350366740214448194,
  823350366740214448194,
  821045086818326020164,
  821045086818292482114,
  823350366877586292804,
  823350366877552754754,
  821045086680887066694,
  821045086406076284994,
  823350366740147339334,
  823350366465336557634,
  675812442810118045764,
  675812442947456360514,
  675812442810084491334,
  675812442672645562434,
  675812442672679100484,
  675812442947456344134,
  675812442672645546054,
  675812442672645546054,
  673507154229609635904,
  673507145437811056704,
  823350358081527357504,
  823350349289728778304,
  673507154092204236864,
  673507145300405657664,
  823350357944121958464,
  823350349152323379264,
  673507154229609627714,
  673507145437811048514,
  823350358081527349314,
  823350349289728770114,
  673507154092204228674,
  673507145300405649474,
  823350357944121950274,
  823350349152323371074,
  821045078022233522244,
  821045069230401404994,
  823350358081493794884,
  823350349289661677634,
  821045077884794568774,
  821045068818185207874,
  823350357944054841414,
  823350348877445480514,
  675812434014025547844,
  675812425359565283394,
  675812434013991993414,
  675812425084754485314,
  675812433876586602564,
  675812425359565267014,
  675812433876553048134,
  675812425084754468934,
  821045069230468505664,
  821045078022267084864,
  821045069093063106624,
  821045077884861685824,
  673507145162966712384,
  673507154092137144384,
  675812425222226985024,
  675812434151397417024,
  821045069230468497474,
  821045078022267076674,
  821045069093063098434,
  821045077884861677634,
  673507145162966696004,
  673507154092103589954,
  823350349014884417604,
  823350357944021311554,
  673507145162933141574,
  673507153817292791874,
  823350349014850863174,
  823350357669210513474,
  673507145025527758914,
  673507154092137119814,
  675812425084788031554,
  675812434151397392454,
  673507145025527750724,
  673507154092103573574,
  823350348877445472324,
  823350357944021295174,
  673507145025494196294,
  673507153817292775494,
  823350348877411917894,
  823350357669210497094,
  821045069228321546304,
  821045069228321546304,
  821045069090916147264,
  821045069090916147264,
  673507145160819753024,
  673507145298191605824,
  675812425220080025664,
  675812425357451878464,
  821045069228321538114,
  821045069228321538114,
  821045069090916139074,
  821045069090916139074,
  673507145160819736644,
  673507145298158051394,
  823350349012737458244,
  823350349150075772994,
  673507145160786182214,
  673507145023347253314,
  823350349012703903814,
  823350348875264974914,
  673507145023380799554,
  673507145298191581254,
  675812425082641072194,
  675812425357451853894,
  673507145023380791364,
  673507145298158035014,
  823350348875298512964,
  823350349150075756614,
  673507145023347236934,
  673507145023347236934,
  823350348875264958534,
  823350348875264958534,
  673507163023554650304,
  673507163025701085504,
  823350366875472371904,
  823350366877618807104,
  673507162886149251264,
  673507162888295686464,
  823350366738066972864,
  823350366740213408064,
  673507163023554642114,
  673507163025701077314,
  823350366875472363714,
  823350366877618798914,
  673507162886149243074,
  673507162888295678274,
  823350366738066964674,
  823350366740213399874,
  821045086816178536644,
  821045086818291433794,
  823350366875438809284,
  823350366877551706434,
  821045086678739583174,
  821045086406075236674,
  823350366737999855814,
  823350366465335509314,
  675812442807970562244,
  675812442947455312194,
  675812442807937007814,
  675812442672644514114,
  675812442670531616964,
  675812442947455295814,
  675812442670498062534,
  675812442672644497734,
  673507154227462152384,
  673507145437810008384,
  823350358079379873984,
  823350349289727729984,
  673507154090056753344,
  673507145300404609344,
  823350357941974474944,
  823350349152322330944]
def ccsdtqT2cubed_t4_aabbaabb_cert_1 : List Nat := [673507154227462144194,
  673507145437810000194,
  823350358079379865794,
  823350349289727721794,
  673507154090056745154,
  673507145300404601154,
  823350357941974466754,
  823350349152322322754,
  821045078020086038724,
  821045069230400356674,
  823350358079346311364,
  823350349289660629314,
  821045077882647085254,
  821045068818184159554,
  823350357941907357894,
  823350348877444432194,
  675812434011878064324,
  675812425359564235074,
  675812434011844509894,
  675812425084753436994,
  675812433874439119044,
  675812425359564218694,
  675812433874405564614,
  675812425084753420614,
  821045069223993016644,
  821045069223959478594,
  821045069086554063174,
  821045068811743281474,
  673507145156524769604,
  673507145293863084354,
  821045068949182218564,
  821045069086520533314,
  673507145156491215174,
  673507145019052286274,
  821045068949148664134,
  821045068811709735234,
  673507145019085824324,
  673507145293863067974,
  821045068811743273284,
  821045069086520516934,
  673507145019052269894,
  673507145019052269894,
  821045068811709718854,
  821045068811709718854,
  821045060434375483584,
  821045078022265512384,
  821045060296970084544,
  821045077884860113344,
  673507136366873690304,
  673507154092135571904,
  673507136366873690304,
  673507154092135571904,
  821045060434375475394,
  821045078022265504194,
  821045060296970076354,
  821045077884860105154,
  673507136366873673924,
  673507154092102017474,
  823350340218791395524,
  823350357944019739074,
  673507136366840119494,
  673507153817291219394,
  823350340218757841094,
  823350357669208940994,
  673507136229434736834,
  673507154092135547334,
  673507136229434736834,
  673507154092135547334,
  673507136229434728644,
  673507154092102001094,
  823350340081352450244,
  823350357944019722694,
  673507136229401174214,
  673507153817291203014,
  823350340081318895814,
  823350357669208924614,
  821045060432228524224,
  821045069228319973824,
  821045060294823125184,
  821045069090914574784,
  673507136364726730944,
  673507145298190033344,
  673507136364726730944,
  673507145298190033344,
  821045060432228516034,
  821045069228319965634,
  821045060294823116994,
  821045069090914566594,
  673507136364726714564,
  673507145298156478914,
  823350340216644436164,
  823350349150074200514,
  673507136364693160134,
  673507145023345680834,
  823350340216610881734,
  823350348875263402434,
  673507136227287777474,
  673507145298190008774,
  673507136227287777474,
  673507145298190008774,
  673507136227287769284,
  673507145298156462534,
  823350340079205490884,
  823350349150074184134,
  673507136227254214854,
  673507145023345664454,
  823350340079171936454,
  823350348875263386054,
  821045060430047478084,
  821045069223958954434,
  821045060292608524614,
  821045068811742757314,
  673507136362579231044,
  673507145293862560194,
  673507136362579231044,
  673507145293862560194,
  673507136362545676614,
  673507145019051762114,
  673507136362545676614,
  673507145019051762114,
  673507136225140285764,
  673507145293862543814,
  673507136225140285764,
  673507145293862543814,
  673507136225106731334,
  673507145019051745734,
  673507136225106731334,
  673507145019051745734,
  823350366879733268544,
  823350366879733268544,
  823350366742294323264,
  823350366604922470464,
  823350366879699714114,
  823350366879733252164,
  823350366742260768834,
  823350366604922454084,
  675812434293130281024,
  675812434293130281024,
  675812434155691335744,
  675812434018319482944,
  675812434293096726594,
  675812434293130264644,
  675812434155657781314,
  675812434018319466564,
  823350366877619855424,
  823350366877619855424,
  821045086818359582784,
  821045086818359582784,
  675812443084928860224,
  675812443084928860224,
  673507163025668587584,
  673507163025668587584,
  675812442947489914944,
  675812442810118062144,
  673507162888229642304,
  673507162750857789504,
  675812443084895305794,
  675812443084928843844,
  673507163025635033154,
  673507163025668571204,
  675812442947456360514,
  675812442810118045764,
  673507162888196087874,
  673507162750857773124,
  823350358081527357504,
  823350349289728778304,
  821045078022267084864,
  821045069230468505664,
  675812434288836362304,
  675812425497037783104,
  673507154229576089664,
  673507145437777510464,
  675812434151397417024,
  675812425222226985024,
  673507154092137144384,
  673507145162966712384,
  675812434288802807874,
  675812425497037766724,
  673507154229542535234,
  673507145437777494084,
  675812434151363862594,
  675812425222226968644,
  673507154092103589954,
  673507145162966696004,
  823350349289695232064,
  823350358081493811264,
  821045069230434959424,
  821045078022233538624,
  823350349152256286784,
  823350357806683013184,
  821045069092996014144,
  821045077747422740544,
  823350349289661677634,
  823350358081493794884,
  821045069230401404994,
  821045078022233522244,
  823350349152222732354,
  823350357806682996804,
  821045069092962459714,
  821045077747422724164,
  675812425222126329924,
  675812434013924909124,
  673507145162866057284,
  673507153954664636484,
  823350349287548272704,
  823350349287548272704,
  821045069228288000064,
  821045069228288000064,
  823350349150109327424,
  823350349012737474624,
  821045069090849054784,
  821045068953477201984,
  823350349287514718274,
  823350349287548256324,
  821045069228254445634,
  821045069228287983684,
  823350349150075772994,
  823350349012737458244,
  821045069090815500354,
  821045068953477185604,
  675812425219979370564,
  675812425219979370564,
  673507145160719097924,
  673507145160719097924,
  823350366875472371904,
  823350366877618807104,
  821045086816212099264,
  821045086818358534464,
  675812443082781376704,
  675812443084927811904,
  673507163023521104064,
  673507163025667539264,
  675812442945342431424,
  675812442810117013824,
  673507162886082158784,
  673507162750856741184,
  675812443082747822274,
  675812443084927795524,
  673507163023487549634,
  673507163025667522884,
  675812442945308876994,
  675812442810116997444,
  673507162886048604354,
  673507162750856724804,
  823350358079379873984,
  823350349289727729984,
  821045078020119601344,
  821045069230467457344,
  675812434286688878784,
  675812425497036734784,
  673507154227428606144,
  673507145437776462144,
  675812434149249933504,
  675812425222225936704,
  673507154089989660864,
  673507145162965664064,
  675812434286655324354,
  675812425497036718404,
  673507154227395051714,
  673507145437776445764,
  675812434149216379074,
  675812425222225920324,
  673507154089956106434,
  673507145162965647684,
  823350349283253305664,
  823350349283253305664,
  823350349145814360384,
  823350349008442507584,
  823350349283219751234,
  823350349283253289284,
  823350349145780805954,
  823350349008442491204,
  823350340493602209984,
  823350358081492238784,
  821045060434341937344,
  821045078022231966144,
  823350340356163264704,
  823350357806681440704,
  821045060296902992064,
  821045077747421168064,
  823350340493568655554,
  823350358081492222404,
  821045060434308382914,
  821045078022231949764,
  823350340356129710274,
  823350357806681424324,
  821045060296869437634,
  821045077747421151684,
  675812416426033307844,
  675812434013923336644,
  673507136366773035204,
  673507153954663064004,
  823350340491455250624,
  823350349287546700224,
  821045060432194977984,
  821045069228286427584,
  823350340354016305344,
  823350349012735902144,
  821045060294756032704,
  821045068953475629504,
  823350340491421696194,
  823350349287546683844,
  821045060432161423554,
  821045069228286411204,
  823350340353982750914,
  823350349012735885764,
  821045060294722478274,
  821045068953475613124,
  675812416423886348484,
  675812425219977798084,
  673507136364626075844,
  673507145160717525444,
  675812416696650318144,
  675812425490595332544,
  675812416559211372864,
  675812425215784534464,
  675812416696616763714,
  675812425490595316164,
  675812416559177818434,
  675812425215784518084,
  823350366879766814784,
  823350366879766814784,
  823350366879766806594,
  823350366879766806594,
  823350366879766814784,
  823350366879766814784,
  823350366879766806594,
  823350366879766806594,
  823350366879766814784,
  823350366879766814784,
  675812443087109365824,
  675812443087109365824,
  823350366879766814784,
  823350366879766814784,
  675812443087109365824,
  675812443087109365824,
  821045086820506542144,
  821045086820506542144,
  673507163027849093184,
  673507163027849093184,
  823350366879766814784,
  823350366879766814784,
  675812443087109365824,
  675812443087109365824,
  821045086820506542144,
  821045086820506542144,
  673507163027849093184,
  673507163027849093184,
  823350366879766814784,
  823350366879766814784,
  675812443087109365824,
  675812443087109365824,
  823350366879766814784,
  823350366879766814784,
  675812443087109365824,
  675812443087109365824,
  821045086820506542144,
  821045086820506542144,
  673507163027849093184,
  673507163027849093184,
  823350366879766814784,
  823350366879766814784,
  675812443087109365824,
  675812443087109365824,
  821045086820506542144,
  821045086820506542144,
  673507163027849093184,
  673507163027849093184,
  823350366879766814784,
  823350366879766814784,
  675812443087109365824,
  675812443087109365824,
  823350366879766814784,
  823350366879766814784,
  675812443087109365824,
  675812443087109365824,
  821045086820506542144,
  821045086820506542144,
  673507163027849093184,
  673507163027849093184,
  823350366879766814784,
  823350366879766814784,
  675812443087109365824,
  675812443087109365824,
  821045086820506542144,
  821045086820506542144,
  673507163027849093184,
  673507163027849093184,
  823350366879766814784,
  823350366879766814784,
  675812443087109365824,
  675812443087109365824,
  823350366879766814784,
  823350366879766814784,
  675812443087109365824,
  675812443087109365824,
  821045086820506542144,
  821045086820506542144,
  673507163027849093184,
  673507163027849093184]
def ccsdtqT2cubed_t4_aabbaabb_cert_2 : List Nat := [823350366879766814784,
  823350366879766814784,
  675812443087109365824,
  675812443087109365824,
  821045086820506542144,
  821045086820506542144,
  673507163027849093184,
  673507163027849093184,
  823350366879766814784,
  823350366879766814784,
  823350366742361415744,
  823350366742361415744,
  823350366879766814784,
  823350366879766814784,
  823350366742361415744,
  823350366742361415744,
  675812443087109365824,
  675812443087109365824,
  675812443087109357634,
  675812443087109357634,
  675812443087109365824,
  675812443087109365824,
  675812442949703966784,
  675812442949703966784,
  675812443087109365824,
  675812443087109365824,
  675812443087109357634,
  675812443087109357634,
  675812443087108841664,
  675812443087108841664,
  675812443087108833474,
  675812443087108833474,
  675812443087109365824,
  675812443087109365824,
  675812443087109357634,
  675812443087109357634,
  675812443087109365824,
  675812443087109365824,
  675812443087109357634,
  675812443087109357634,
  675812443087108841664,
  675812443087108841664,
  675812443087108833474,
  675812443087108833474,
  823350366879766814784,
  823350366879766814784,
  823350366879766814784,
  823350366879766814784,
  823350366879766814784,
  823350366879766814784,
  823350366879766814784,
  823350366879766814784,
  823350366879766814784,
  823350366879766814784,
  673507163027849093184,
  673507163027849093184,
  823350366879766814784,
  823350366879766814784,
  823350366879766806594,
  823350366879766806594,
  823350366879766814784,
  823350366879766814784,
  823350366879766806594,
  823350366879766806594,
  823350366879766814784,
  823350366879766814784,
  823350366879766806594,
  823350366879766806594,
  673507163027849093184,
  673507163027849093184,
  673507163027849084994,
  673507163027849084994,
  823350366879766814784,
  823350366879766814784,
  823350366879766290624,
  823350366879766290624,
  823350366879766814784,
  823350366879766814784,
  821045086820506017984,
  821045086820506017984,
  823350366879766814784,
  823350366879766814784,
  823350366879766290624,
  823350366879766290624,
  673507163027849093184,
  673507163027849093184,
  673507163027848569024,
  673507163027848569024,
  823350366879766814784,
  823350366879766814784,
  823350366879766806594,
  823350366879766806594,
  823350366879766290624,
  823350366879766290624,
  823350366879766282434,
  823350366879766282434,
  673507163027849093184,
  673507163027849093184,
  673507163027849084994,
  673507163027849084994,
  673507163027848569024,
  673507163027848569024,
  673507163027848560834,
  673507163027848560834,
  823350366879766814784,
  823350366879766814784,
  823350366879766814784,
  823350366879766814784,
  823350366879766814784,
  823350366879766814784,
  823350366879766814784,
  823350366879766814784,
  823350366879766814784,
  823350366879766814784,
  673507163027849093184,
  673507163027849093184,
  823350366879766814784,
  823350366879766814784,
  823350366879766290624,
  823350366879766290624,
  823350366879766814784,
  823350366879766814784,
  821045086820506017984,
  821045086820506017984,
  823350366879766814784,
  823350366879766814784,
  823350366879766290624,
  823350366879766290624,
  673507163027849093184,
  673507163027849093184,
  673507163027848569024,
  673507163027848569024,
  821045086820506542144,
  821045086820506542144,
  673507163027849093184,
  673507163027849093184,
  675812443087109365824,
  675812443087109365824,
  673507163027849093184,
  673507163027849093184,
  673507163027848569024,
  673507163027848569024,
  675812443087109365824,
  675812443087109365824,
  675812443087108841664,
  675812443087108841664,
  675812443087109365824,
  675812443087109365824,
  821045086820506542144,
  821045086820506542144,
  675812443087109365824,
  675812443087109365824,
  823350366879766814784,
  823350366879766814784,
  673507163027849093184,
  673507163027849093184,
  675812443087109365824,
  675812443087109365824,
  675812443087108841664,
  675812443087108841664,
  821045086820506542144,
  821045086820506542144,
  821045086820506017984,
  821045086820506017984,
  673507163027849093184,
  673507163027849093184,
  673507163027848569024,
  673507163027848569024,
  675812443087109365824,
  675812443087109365824,
  821045086820506542144,
  821045086820506542144,
  675812443087109365824,
  675812443087109365824,
  823350366879766814784,
  823350366879766814784,
  673507163027849093184,
  673507163027849093184,
  821045086820506542144,
  821045086820506542144,
  821045086683101143104,
  821045086683101143104,
  673507163027849093184,
  673507163027849093184,
  673507162890443694144,
  673507162890443694144,
  675812443087109365824,
  675812443087109365824,
  675812442949703966784,
  675812442949703966784,
  675812443087109365824,
  675812443087109365824,
  675812443087108841664,
  675812443087108841664,
  821045086820506542144,
  821045086820506542144,
  821045086820506017984,
  821045086820506017984,
  673507163027849093184,
  673507163027849093184,
  673507163027848569024,
  673507163027848569024,
  673507163027849093184,
  673507163027849093184,
  673507162890443694144,
  673507162890443694144,
  673507163027848569024,
  673507163027848569024,
  673507162890443169984,
  673507162890443169984,
  675812443087109365824,
  675812443087109365824,
  675812442949703966784,
  675812442949703966784,
  675812443087108841664,
  675812443087108841664,
  675812442949703442624,
  675812442949703442624,
  675812443087109365824,
  675812443087109365824,
  821045086820506542144,
  821045086820506542144,
  675812443087109365824,
  675812443087109365824,
  823350366879766814784,
  823350366879766814784,
  673507163027849093184,
  673507163027849093184,
  821045086820506542144,
  821045086820506542144,
  673507163027849093184,
  673507163027849093184,
  675812443087109365824,
  675812443087109365824,
  821045086820506542144,
  821045086820506542144,
  823350366879766814784,
  823350366879766814784,
  675812443087109365824,
  675812443087109365824,
  675812443087108841664,
  675812443087108841664,
  821045086820506542144,
  821045086820506542144,
  821045086820506017984,
  821045086820506017984,
  673507163027849093184,
  673507163027849093184,
  673507163027848569024,
  673507163027848569024,
  673507163027849093184,
  673507163027849093184,
  673507163027848569024,
  673507163027848569024,
  675812443087109365824,
  675812443087109365824,
  675812443087108841664,
  675812443087108841664,
  821045086820506542144,
  821045086820506542144,
  821045086820506017984,
  821045086820506017984,
  823350366879766814784,
  823350366879766814784,
  823350366879766290624,
  823350366879766290624,
  675812443087109365824,
  675812443087109365824,
  821045086820506542144,
  821045086820506542144,
  675812443087109365824,
  675812443087109365824,
  823350366879766814784,
  823350366879766814784,
  673507163027849093184,
  673507163027849093184,
  675812443087109365824,
  675812443087109365824,
  675812443087108841664,
  675812443087108841664,
  821045086820506542144,
  821045086820506542144,
  821045086820506017984,
  821045086820506017984,
  673507163027849093184,
  673507163027849093184,
  673507163027848569024,
  673507163027848569024,
  823350366879766814784,
  823350366879766814784,
  823350366742361415744,
  823350366742361415744,
  823350366879766814784,
  823350366879766814784,
  823350366742361415744,
  823350366742361415744,
  821045086820506542144,
  821045086820506542144,
  821045086683101143104,
  821045086683101143104,
  823350366879766814784,
  823350366879766814784,
  823350366742361415744,
  823350366742361415744,
  823350366879766290624,
  823350366879766290624,
  823350366742360891584,
  823350366742360891584,
  821045086820506542144,
  821045086820506542144,
  821045086683101143104,
  821045086683101143104,
  821045086820506017984,
  821045086820506017984,
  821045086683100618944,
  821045086683100618944,
  675812443087109365824,
  675812443087109365824,
  675812443087109357634,
  675812443087109357634,
  675812443087109365824,
  675812443087109365824,
  675812443087109357634,
  675812443087109357634,
  823350366879766814784,
  823350366879766814784,
  821045086820506542144,
  821045086820506542144,
  823350366879766814784,
  823350366879766814784,
  673507163027849093184,
  673507163027849093184,
  823350366879766814784,
  823350366879766814784,
  823350366879766806594,
  823350366879766806594,
  673507163027849093184,
  673507163027849093184,
  673507163027849084994,
  673507163027849084994,
  823350366879766814784,
  823350366879766814784,
  821045086820506542144,
  821045086820506542144,
  823350366879766814784,
  823350366879766814784,
  673507163027849093184,
  673507163027849093184,
  673507163027849093184,
  673507163027849093184,
  675812443087109365824,
  675812443087109365824,
  675812443087109365824,
  675812443087109365824,
  821045086820506542144,
  821045086820506542144,
  673507163027849093184,
  673507163027849093184,
  675812443087109365824,
  675812443087109365824,
  821045086820506542144,
  821045086820506542144,
  673507163027849093184,
  673507163027849093184,
  673507163027849093184,
  673507163027849093184,
  673507162890443694144,
  673507162890443694144,
  675812443087109365824,
  675812443087109365824,
  675812442949703966784,
  675812442949703966784,
  675812443087109365824,
  675812443087109365824,
  821045086820506542144,
  821045086820506542144,
  673507163027849093184,
  673507163027849093184,
  673507163027849093184,
  673507163027849093184,
  675812443087109365824,
  675812443087109365824,
  821045086820506542144,
  821045086820506542144,
  823350366879766814784,
  823350366879766814784,
  675812443087109365824,
  675812443087109365824,
  821045086820506542144,
  821045086820506542144,
  673507163027849093184,
  673507163027849093184,
  823350366879766814784,
  823350366879766814784,
  823350366742361415744,
  823350366742361415744,
  821045086820506542144,
  821045086820506542144,
  821045086683101143104,
  821045086683101143104]
def ccsdtqT2cubed_t4_aabbaabb_cert_3 : List Nat := [821045086820506542144,
  821045086820506542144,
  821045086820506533954,
  821045086820506533954,
  673507163027849093184,
  673507163027849093184,
  673507163027849084994,
  673507163027849084994,
  821045086820506542144,
  821045086820506542144,
  821045086820506533954,
  821045086820506533954,
  673507163027849093184,
  673507163027849093184,
  673507163027849084994,
  673507163027849084994,
  821045086820506542144,
  821045086820506542144,
  821045086820506542144,
  821045086820506542144,
  673507163027849093184,
  673507163027849093184,
  673507163027849084994,
  673507163027849084994,
  821045086820506542144,
  821045086820506542144,
  821045086820506542144,
  821045086820506542144,
  821045086820506542144,
  821045086820506542144,
  821045086820506542144,
  821045086820506542144,
  821045086820506542144,
  821045086820506542144,
  821045086820506542144,
  821045086820506542144,
  821045086683101143104,
  821045086683101143104,
  821045086820506542144,
  821045086820506542144,
  821045086820506542144,
  821045086820506542144,
  821045086820506542144,
  821045086820506542144,
  821045086820506542144,
  821045086820506542144,
  821045086820506542144,
  821045086820506542144]

/-- Check ccsdtqT2cubed_t4_aabbaabb. C83 -/
theorem ccsdtqT2cubed_t4_aabbaabb : isZeroSpin kinds [aᵥ, bᵥ, cᵥ, dᵥ, iₒ, jₒ, kₒ, lₒ] 4 [false, false, true, true, false, false, true, true]
    (Prog.outs [4, 5, 6, 7, 0, 1, 2, 3] (Prog.thin split_cub_t4 (Prog.part [[23, 39, 39, 39]] (wnT2cubed_toT4_0))))
    (Prog.scale (-1) (ccsdtqT2cubed_t4_aabbaabb))
    (ccsdtqT2cubed_t4_aabbaabb_cert_0 ++ (ccsdtqT2cubed_t4_aabbaabb_cert_1 ++ (ccsdtqT2cubed_t4_aabbaabb_cert_2 ++ (ccsdtqT2cubed_t4_aabbaabb_cert_3)))) = true := by decide +kernel

def ccsdtqT2cubed_t4_abbbabbb_cert_0 : List Nat := [823350366879766814784,
  823350366879766814784,
  823350366879733268544,
  823350366879733268544,
  823350366742294323264,
  823350366604922470464,
  823350366879699714114,
  823350366879733252164,
  675812443087042265154,
  675812443087075803204,
  823350366742260768834,
  823350366604922454084,
  675812442949603319874,
  675812442812265005124,
  823350366879699705924,
  823350366879699705924,
  675812443087042256964,
  675812443087042256964,
  823350366742260752454,
  823350366467483508804,
  675812442949603303494,
  675812442674826059844,
  823350366604821815364,
  823350366604821815364,
  675812442812164366404,
  675812442812164366404,
  823350366604821807174,
  823350366467416416324,
  675812442812164358214,
  675812442674758967364,
  823350366877619855424,
  823350366877619855424,
  823350366877586309184,
  823350366877586309184,
  823350366740147363904,
  823350366602775511104,
  823350366877552754754,
  823350366877586292804,
  675812443084895305794,
  675812443084928843844,
  823350366740113809474,
  823350366602775494724,
  675812442947456360514,
  675812442810118045764,
  823350366877552746564,
  823350366877552746564,
  675812443084895297604,
  675812443084895297604,
  823350366740113793094,
  823350366465336549444,
  675812442947456344134,
  675812442672679100484,
  823350366602674856004,
  823350366602674856004,
  675812442810017407044,
  675812442810017407044,
  823350366602674847814,
  823350366465269456964,
  675812442810017398854,
  675812442672612008004,
  823350358081527357504,
  823350349289728778304,
  823350358081493811264,
  823350349289695232064,
  823350357944054865984,
  823350349014884433984,
  823350358081460256834,
  823350349289695215684,
  675812434288802807874,
  675812425497037766724,
  823350357944021311554,
  823350349014884417604,
  675812434151363862594,
  675812425222226968644,
  823350358081460248644,
  823350349289661669444,
  675812434288802799684,
  675812425497004220484,
  823350357944021295174,
  823350348877445472324,
  675812434151363846214,
  675812425084788023364,
  823350357806582358084,
  823350349014783778884,
  675812434013924909124,
  675812425222126329924,
  823350357806582349894,
  823350348877378379844,
  675812434013924900934,
  675812425084720930884,
  821045086816212091074,
  821045086818358526274,
  821045086816178536644,
  821045086818291433794,
  821045086678739583174,
  821045086406075236674,
  821045086816144998594,
  821045086818324971844,
  673507163023487549634,
  673507163025667522884,
  821045086678706053314,
  821045086543514173764,
  673507162886048604354,
  673507162750856724804,
  821045086816144990404,
  821045086818291425604,
  673507163023487541444,
  673507163025633976644,
  821045086678706036934,
  821045086406075228484,
  673507162886048587974,
  673507162613417779524,
  821045086541267099844,
  821045086543413535044,
  673507162748609650884,
  673507162750756086084,
  821045086541267091654,
  821045086406008136004,
  673507162748609642694,
  673507162613350687044,
  821045078020119593154,
  821045069230467449154,
  821045078020086038724,
  821045069230400356674,
  821045077882647085254,
  821045068818184159554,
  821045078020052500674,
  821045069230433894724,
  673507154227395051714,
  673507145437776445764,
  821045077882613555394,
  821045068955623096644,
  673507154089956106434,
  673507145162965647684,
  821045078020052492484,
  821045069230400348484,
  673507154227395043524,
  673507145437742899524,
  821045077882613539014,
  821045068818184151364,
  673507154089956090054,
  673507145025526702404,
  821045077745174601924,
  821045068955522457924,
  673507153952517152964,
  673507145162865008964,
  821045077745174593734,
  821045068818117058884,
  673507153952517144774,
  673507145025459609924,
  821045069224026571074,
  821045069224026571074,
  821045069223993016644,
  821045069223959478594,
  821045069086554063174,
  821045068811743281474,
  821045069223959478594,
  821045069223993016644,
  673507145431302029634,
  673507145431335567684,
  821045069086520533314,
  821045068949182218564,
  673507145293863084354,
  673507145156524769604,
  821045069223959470404,
  821045069223959470404,
  673507145431302021444,
  673507145431302021444,
  821045069086520516934,
  821045068811743273284,
  673507145293863067974,
  673507145019085824324,
  821045068949081579844,
  821045068949081579844,
  673507145156424130884,
  673507145156424130884,
  821045068949081571654,
  821045068811676180804,
  673507145156424122694,
  673507145019018731844,
  673507163027849093184,
  673507163027849093184,
  823350366879766814784,
  823350366879766814784,
  673507162890443694144,
  673507162890443694144,
  823350366742361415744,
  823350366742361415744,
  673507162753004748864,
  673507162890376601664,
  823350366604922470464,
  823350366742294323264,
  821045086820506533954,
  821045086820506533954,
  823350366879766806594,
  823350366879766806594,
  821045086683101134914,
  821045086683101134914,
  823350366742361407554,
  823350366742361407554,
  821045086820472979524,
  821045086820439441474,
  823350366879733252164,
  823350366879699714114,
  821045086683034026054,
  821045086408223244354,
  823350366742294298694,
  823350366467483516994,
  821045086545662181444,
  821045086683000496194,
  823350366604922454084,
  823350366742260768834,
  821045086545628627014,
  821045086408189698114,
  823350366604888899654,
  823350366467449970754,
  675812442674826068034,
  675812442949636849734,
  675812442674826059844,
  675812442949603303494,
  675812442674792505414,
  675812442674792505414,
  673507154233903554624,
  673507154233903554624,
  675812434293163827264,
  675812434293163827264,
  673507154096498155584,
  673507154096498155584,
  675812434155758428224,
  675812434155758428224,
  673507153959059210304,
  673507154096431063104,
  675812434018319482944,
  675812434155691335744,
  673507154233903546434,
  673507154233903546434,
  823350358085821268034,
  823350358085821268034,
  673507154096498147394,
  673507154096498147394,
  823350357948415868994,
  823350357948415868994,
  673507154233869992004,
  673507154233836453954,
  823350358085787713604,
  823350358085754175554,
  673507154096431038534,
  673507153821620256834,
  823350357948348760134,
  823350357673537978434,
  673507153959059193924,
  673507154096397508674,
  823350357810976915524,
  823350357948315230274,
  673507153959025639494,
  673507153821586710594,
  823350357810943361094,
  823350357673504432194,
  675812433880880529474,
  675812434155691311174,
  675812433880880521284,
  675812434155657764934,
  675812433880846966854,
  675812433880846966854,
  673507163025702133824,
  673507163025702133824,
  823350366877619855424,
  823350366877619855424,
  673507162888296734784,
  673507162888296734784,
  823350366740214456384,
  823350366740214456384,
  673507162750857789504,
  673507162888229642304,
  823350366602775511104,
  823350366740147363904,
  821045086818359574594,
  821045086818359574594,
  823350366877619847234,
  823350366877619847234,
  821045086680954175554,
  821045086680954175554,
  823350366740214448194,
  823350366740214448194,
  821045086818326020164,
  821045086818292482114,
  823350366877586292804,
  823350366877552754754,
  821045086680887066694,
  821045086406076284994,
  823350366740147339334,
  823350366465336557634,
  821045086543515222084,
  821045086680853536834,
  823350366602775494724,
  823350366740113809474,
  821045086543481667654,
  821045086406042738754,
  823350366602741940294,
  823350366465303011394,
  675812442672679108674,
  675812442947489890374,
  675812442672679100484,
  675812442947456344134,
  675812442672645546054,
  675812442672645546054,
  673507154229609635904,
  673507145437811056704,
  823350358081527357504,
  823350349289728778304,
  673507154092204236864,
  673507145300405657664,
  823350357944121958464,
  823350349152323379264,
  673507153954765291584,
  673507145300338565184,
  823350357806683013184,
  823350349152256286784,
  821045078022267076674,
  821045069230468497474,
  823350358081527349314,
  823350349289728770114,
  821045077884861677634,
  821045069093063098434,
  823350357944121950274,
  823350349152323371074,
  821045078022233522244,
  821045069230401404994,
  823350358081493794884,
  823350349289661677634,
  821045077884794568774,
  821045068818185207874,
  823350357944054841414,
  823350348877445480514,
  821045077747422724164,
  821045069092962459714,
  823350357806682996804,
  823350349152222732354,
  821045077747389169734,
  821045068818151661634,
  823350357806649442374,
  823350348877411934274,
  675812433876586610754,
  675812425359598813254,
  675812433876586602564,
  675812425359565267014,
  675812433876553048134,
  675812425084754468934,
  673507145437811056704,
  673507154229609635904,
  675812425497071329344,
  675812434288869908544,
  673507145300405657664,
  673507154092204236864,
  675812425359665930304,
  675812434151464509504,
  673507145162966712384,
  673507154092137144384,
  675812425222226985024,
  675812434151397417024,
  673507145437811048514,
  673507154229609627714,
  823350349289728770114,
  823350358081527349314,
  673507145300405649474,
  673507154092204228674,
  823350349152323371074,
  823350357944121950274,
  673507145437777494084,
  673507154229542535234,
  823350349289695215684,
  823350358081460256834,
  673507145300338540614,
  673507153817326338114,
  823350349152256262214,
  823350357669244059714,
  673507145162966696004,
  673507154092103589954,
  823350349014884417604,
  823350357944021311554,
  673507145162933141574,
  673507153817292791874,
  823350349014850863174,
  823350357669210513474,
  675812425084788031554,
  675812434151397392454,
  675812425084788023364,
  675812434151363846214,
  675812425084754468934,
  675812433876553048134,
  673507145435664097344,
  673507145435664097344,
  675812425494924369984,
  675812425494924369984,
  673507145298258698304,
  673507145298258698304,
  675812425357518970944,
  675812425357518970944,
  673507145160819753024,
  673507145298191605824]
def ccsdtqT2cubed_t4_abbbabbb_cert_1 : List Nat := [675812425220080025664,
  675812425357451878464,
  673507145435664089154,
  673507145435664089154,
  823350349287581810754,
  823350349287581810754,
  673507145298258690114,
  673507145298258690114,
  823350349150176411714,
  823350349150176411714,
  673507145435630534724,
  673507145435596996674,
  823350349287548256324,
  823350349287514718274,
  673507145298191581254,
  673507145023380799554,
  823350349150109302854,
  823350348875298521154,
  673507145160819736644,
  673507145298158051394,
  823350349012737458244,
  823350349150075772994,
  673507145160786182214,
  673507145023347253314,
  823350349012703903814,
  823350348875264974914,
  675812425082641072194,
  675812425357451853894,
  675812425082641064004,
  675812425357418307654,
  675812425082607509574,
  675812425082607509574,
  673507163023554642114,
  673507163025701077314,
  821045086816212091074,
  821045086818358526274,
  673507162886149243074,
  673507162888295678274,
  821045086678806692034,
  821045086680953127234,
  673507163023521087684,
  673507163025633984834,
  821045086816178536644,
  821045086818291433794,
  673507162886082134214,
  673507162613417787714,
  821045086678739583174,
  821045086406075236674,
  673507162748710289604,
  673507162888195039554,
  821045086541367738564,
  821045086680852488514,
  673507162748676735174,
  673507162613384241474,
  821045086541334184134,
  821045086406041690434,
  673507154227462144194,
  673507145437810000194,
  821045078020119593154,
  821045069230467449154,
  673507154090056745154,
  673507145300404601154,
  821045077882714194114,
  821045069093062050114,
  673507154227428589764,
  673507145437742907714,
  821045078020086038724,
  821045069230400356674,
  673507154089989636294,
  673507145025526710594,
  821045077882647085254,
  821045068818184159554,
  673507153952617791684,
  673507145300303962434,
  821045077745275240644,
  821045069092961411394,
  673507153952584237254,
  673507145025493164354,
  821045077745241686214,
  821045068818150613314,
  673507145431369122114,
  673507145431369122114,
  821045069224026571074,
  821045069224026571074,
  673507145293963723074,
  673507145293963723074,
  821045069086621172034,
  821045069086621172034,
  673507145431335567684,
  673507145431302029634,
  821045069223993016644,
  821045069223959478594,
  673507145293896614214,
  673507145019085832514,
  821045069086554063174,
  821045068811743281474,
  673507145156524769604,
  673507145293863084354,
  821045068949182218564,
  821045069086520533314,
  673507145156491215174,
  673507145019052286274,
  821045068949148664134,
  821045068811709735234,
  821045060434375475394,
  821045078022265504194,
  821045060296970076354,
  821045077884860105154,
  821045060434341920964,
  821045078022198411714,
  821045060296902967494,
  821045077609982214594,
  821045060159531122884,
  821045077884759466434,
  821045060159497568454,
  821045077609948668354,
  673507136229434736834,
  673507154092135547334,
  673507136229434736834,
  673507154092135547334,
  673507136229434728644,
  673507154092102001094,
  673507136229434728644,
  673507154092102001094,
  673507136229401174214,
  673507153817291203014,
  673507136229401174214,
  673507153817291203014,
  821045060432228516034,
  821045069228319965634,
  821045060294823116994,
  821045069090914566594,
  821045060432194961604,
  821045069228252873154,
  821045060294756008134,
  821045068816036676034,
  821045060157384163524,
  821045069090813927874,
  821045060157350609094,
  821045068816003129794,
  673507136227287777474,
  673507145298190008774,
  673507136227287777474,
  673507145298190008774,
  673507136227287769284,
  673507145298156462534,
  673507136227287769284,
  673507145298156462534,
  673507136227254214854,
  673507145023345664454,
  673507136227254214854,
  673507145023345664454,
  821045060430081032514,
  821045069224026046914,
  821045060292675633474,
  821045069086620647874,
  821045060430047478084,
  821045069223958954434,
  821045060292608524614,
  821045068811742757314,
  821045060155236680004,
  821045069086520009154,
  821045060155203125574,
  821045068811709211074,
  673507136225140293954,
  673507145293896090054,
  673507136225140293954,
  673507145293896090054,
  673507136225140285764,
  673507145293862543814,
  673507136225140285764,
  673507145293862543814,
  673507136225106731334,
  673507145019051745734,
  673507136225106731334,
  673507145019051745734,
  823350366879766814784,
  823350366879766814784,
  821045086820506542144,
  821045086820506542144,
  823350366879733268544,
  823350366879733268544,
  821045086820472995904,
  821045086820472995904,
  823350366742294323264,
  823350366604922470464,
  821045086683034050624,
  821045086545662197824,
  675812443087042265154,
  675812443087075803204,
  673507163027781992514,
  673507163027815530564,
  675812442949603319874,
  675812442812265005124,
  673507162890343047234,
  673507162753004732484,
  675812442812164366404,
  675812442812164366404,
  673507162752904093764,
  673507162752904093764,
  823350358085821276224,
  823350358085821276224,
  821045078026561003584,
  821045078026561003584,
  823350358085787729984,
  823350358085787729984,
  821045078026527457344,
  821045078026527457344,
  823350357948348784704,
  823350357810976931904,
  821045077889088512064,
  821045077751716659264,
  675812434293096726594,
  675812434293130264644,
  673507154233836453954,
  673507154233869992004,
  675812434155657781314,
  675812434018319466564,
  673507154096397508674,
  673507153959059193924,
  675812434018218827844,
  675812434018218827844,
  673507153958958555204,
  673507153958958555204,
  823350366877619855424,
  823350366877619855424,
  821045086818359582784,
  821045086818359582784,
  823350366877586309184,
  823350366877586309184,
  821045086818326036544,
  821045086818326036544,
  823350366740147363904,
  823350366602775511104,
  821045086680887091264,
  821045086543515238464,
  675812443084895305794,
  675812443084928843844,
  673507163025635033154,
  673507163025668571204,
  675812442947456360514,
  675812442810118045764,
  673507162888196087874,
  673507162750857773124,
  675812442810017407044,
  675812442810017407044,
  673507162750757134404,
  673507162750757134404,
  823350358081527357504,
  823350349289728778304,
  821045078022267084864,
  821045069230468505664,
  823350358081493811264,
  823350349289695232064,
  821045078022233538624,
  821045069230434959424,
  823350357944054865984,
  823350349014884433984,
  821045077884794593344,
  821045068955624161344,
  675812434288802807874,
  675812425497037766724,
  673507154229542535234,
  673507145437777494084,
  675812434151363862594,
  675812425222226968644,
  673507154092103589954,
  673507145162966696004,
  675812434013924909124,
  675812425222126329924,
  673507153954664636484,
  673507145162866057284,
  823350349289728778304,
  823350358081527357504,
  821045069230468505664,
  821045078022267084864,
  823350349289695232064,
  823350358081493811264,
  821045069230434959424,
  821045078022233538624,
  823350349152256286784,
  823350357806683013184,
  821045069092996014144,
  821045077747422740544,
  675812425497004228674,
  675812434288836345924,
  673507145437743956034,
  673507154229576073284,
  675812425359565283394,
  675812434014025547844,
  673507145300305010754,
  673507153954765275204,
  675812425222126329924,
  675812434013924909124,
  673507145162866057284,
  673507153954664636484,
  823350349287581818944,
  823350349287581818944,
  821045069228321546304,
  821045069228321546304,
  823350349287548272704,
  823350349287548272704,
  821045069228288000064,
  821045069228288000064,
  823350349150109327424,
  823350349012737474624,
  821045069090849054784,
  821045068953477201984,
  675812425494857269314,
  675812425494890807364,
  673507145435596996674,
  673507145435630534724,
  675812425357418324034,
  675812425220080009284,
  673507145298158051394,
  673507145160819736644,
  675812425219979370564,
  675812425219979370564,
  673507145160719097924,
  673507145160719097924,
  823350366875472371904,
  823350366877618807104,
  823350366875438825664,
  823350366877585260864,
  823350366737999880384,
  823350366602774462784,
  823350358079379873984,
  823350349289727729984,
  823350358079346327744,
  823350349289694183744,
  823350357941907382464,
  823350349014883385664,
  823350349283286851904,
  823350349283286851904,
  823350349283253305664,
  823350349283253305664,
  823350349145814360384,
  823350349008442507584,
  675812416700911206594,
  675812434288834773444,
  675812416563472261314,
  675812434014023975364,
  675812416426033307844,
  675812434013923336644,
  675812416698764247234,
  675812425494889234884,
  675812416561325301954,
  675812425220078436804,
  675812416423886348484,
  675812425219977798084,
  675812416696616763714,
  675812425490595316164,
  675812416559177818434,
  675812425215784518084,
  675812416421738864964,
  675812425215683879364,
  823350366879766814784,
  823350366879766814784,
  823350366877619855424,
  823350366877619855424,
  823350366879766814784,
  823350366879766814784,
  823350366879766814784,
  823350366879766814784,
  823350366877619855424,
  823350366877619855424,
  823350366879766814784,
  823350366879766814784,
  823350366879766814784,
  823350366879766814784,
  823350366879733268544,
  823350366879733268544,
  823350366877619855424,
  823350366877619855424,
  823350366877586309184,
  823350366877586309184,
  675812443087109365824,
  675812443087109365824,
  675812443087075819584,
  675812443087075819584,
  675812443084962406464,
  675812443084962406464,
  675812443084928860224,
  675812443084928860224,
  823350366879766814784,
  823350366879766814784,
  823350366879733268544,
  823350366879733268544,
  675812443087109365824,
  675812443087109365824,
  675812443087075819584,
  675812443087075819584,
  823350366879766814784,
  823350366879766814784,
  823350366877619855424,
  823350366877619855424,
  823350366879766814784,
  823350366879766814784,
  823350366879766814784,
  823350366879766814784]
def ccsdtqT2cubed_t4_abbbabbb_cert_2 : List Nat := [823350366604888924224,
  823350366604888924224,
  823350366877619855424,
  823350366877619855424,
  823350366602741964864,
  823350366602741964864,
  675812443087109365824,
  675812443087109365824,
  675812442812231475264,
  675812442812231475264,
  675812443084962406464,
  675812443084962406464,
  675812442810084515904,
  675812442810084515904,
  823350366879766814784,
  823350366879766814784,
  823350366604888924224,
  823350366604888924224,
  675812443087109365824,
  675812443087109365824,
  675812442812231475264,
  675812442812231475264,
  823350366879766814784,
  823350366879766814784,
  823350366742361415744,
  823350366742361415744,
  823350366877619855424,
  823350366877619855424,
  823350366740214456384,
  823350366740214456384,
  675812443087109365824,
  675812443087109365824,
  675812442949703966784,
  675812442949703966784,
  675812443084962406464,
  675812443084962406464,
  675812442947557007424,
  675812442947557007424,
  823350366879766814784,
  823350366879766814784,
  823350366742361415744,
  823350366742361415744,
  675812443087109365824,
  675812443087109365824,
  675812442949703966784,
  675812442949703966784,
  675812443087109365824,
  675812443087109365824,
  675812443084962406464,
  675812443084962406464,
  675812443087109365824,
  675812443087109365824,
  675812442949703966784,
  675812442949703966784,
  675812443084962406464,
  675812443084962406464,
  675812442947557007424,
  675812442947557007424,
  823350366879766814784,
  823350366879766814784,
  821045086820506542144,
  821045086820506542144,
  675812443087109365824,
  675812443087109365824,
  823350366879766814784,
  823350366879766814784,
  673507163027849093184,
  673507163027849093184,
  675812443087109365824,
  675812443087109365824,
  675812442949703966784,
  675812442949703966784,
  823350366879766814784,
  823350366879766814784,
  823350366742361415744,
  823350366742361415744,
  673507163027849093184,
  673507163027849093184,
  673507162890443694144,
  673507162890443694144,
  675812443087109365824,
  675812443087109365824,
  675812443084962406464,
  675812443084962406464,
  823350366879766814784,
  823350366879766814784,
  821045086820506542144,
  821045086820506542144,
  675812443087109365824,
  675812443087109365824,
  823350366879766814784,
  823350366879766814784,
  673507163027849093184,
  673507163027849093184,
  675812443087109365824,
  675812443087109365824,
  675812443084962406464,
  675812443084962406464,
  675812443087109365824,
  675812443087109365824,
  675812443084962406464,
  675812443084962406464,
  823350366879766814784,
  823350366879766814784,
  823350366877619855424,
  823350366877619855424,
  823350366879766814784,
  823350366879766814784,
  823350366877619855424,
  823350366877619855424,
  823350366879766814784,
  823350366879766814784,
  821045086820506542144,
  821045086820506542144,
  675812443087109365824,
  675812443087109365824,
  823350366879766814784,
  823350366879766814784,
  673507163027849093184,
  673507163027849093184,
  675812443087109365824,
  675812443087109365824,
  823350366879766814784,
  823350366879766814784,
  673507163027849093184,
  673507163027849093184,
  823350366879766814784,
  823350366879766814784,
  823350366879766814784,
  823350366879766814784,
  821045086820506542144,
  821045086820506542144,
  823350366879766814784,
  823350366879766814784,
  823350366879733268544,
  823350366879733268544,
  823350366877619855424,
  823350366877619855424,
  823350366877586309184,
  823350366877586309184,
  823350366879766814784,
  823350366879766814784,
  823350366879733268544,
  823350366879733268544,
  823350366877619855424,
  823350366877619855424,
  823350366877586309184,
  823350366877586309184,
  823350366879766814784,
  823350366879766814784,
  823350366879733268544,
  823350366879733268544,
  823350366879766814784,
  823350366879766814784,
  823350366879733268544,
  823350366879733268544,
  821045086820506542144,
  821045086820506542144,
  821045086820472995904,
  821045086820472995904,
  675812443087109365824,
  675812443087109365824,
  821045086820506542144,
  821045086820506542144,
  673507163027849093184,
  673507163027849093184,
  673507163027849093184,
  673507163027849093184,
  673507163027815546944,
  673507163027815546944,
  675812443087109365824,
  675812443087109365824,
  675812443087075819584,
  675812443087075819584,
  675812443087109365824,
  675812443087109365824,
  821045086820506542144,
  821045086820506542144,
  673507163027849093184,
  673507163027849093184,
  675812443087109365824,
  675812443087109365824,
  675812443087075819584,
  675812443087075819584,
  675812443084962406464,
  675812443084962406464,
  675812443084928860224,
  675812443084928860224,
  823350366879766814784,
  823350366879766814784,
  823350366879733268544,
  823350366879733268544,
  823350366877619855424,
  823350366877619855424,
  823350366877586309184,
  823350366877586309184,
  821045086820506542144,
  821045086820506542144,
  821045086683101143104,
  821045086683101143104,
  821045086818359582784,
  821045086818359582784,
  821045086680954183744,
  821045086680954183744,
  675812443087109365824,
  675812443087109365824,
  675812443087075819584,
  675812443087075819584,
  823350366879766814784,
  823350366879766814784,
  823350366879733268544,
  823350366879733268544,
  823350366879766814784,
  823350366879766814784,
  823350366879733268544,
  823350366879733268544,
  821045086820506542144,
  821045086820506542144,
  821045086820472995904,
  821045086820472995904,
  821045086820506542144,
  821045086820506542144,
  821045086683101143104,
  821045086683101143104,
  821045086820506542144,
  821045086820506542144,
  821045086683101143104,
  821045086683101143104,
  823350366879766814784,
  823350366879766814784,
  823350366742361415744,
  823350366742361415744,
  821045086820506542144,
  821045086820506542144,
  821045086818359582784,
  821045086818359582784,
  675812443087109365824,
  675812443087109365824,
  821045086820506542144,
  821045086820506542144,
  673507163027849093184,
  673507163027849093184,
  673507163027849093184,
  673507163027849093184,
  675812443087109365824,
  675812443087109365824,
  821045086820506542144,
  821045086820506542144,
  821045086820506542144,
  821045086820506542144,
  823350366879766814784,
  823350366879766814784,
  675812443087109365824,
  675812443087109365824,
  675812442812231475264,
  675812442812231475264,
  675812443084962406464,
  675812443084962406464,
  675812442810084515904,
  675812442810084515904,
  823350366879766814784,
  823350366879766814784,
  823350366604888924224,
  823350366604888924224,
  823350366877619855424,
  823350366877619855424,
  823350366602741964864,
  823350366602741964864,
  675812443087109365824,
  675812443087109365824,
  675812442812231475264,
  675812442812231475264,
  823350366879766814784,
  823350366879766814784,
  823350366604888924224,
  823350366604888924224,
  823350366879766814784,
  823350366879766814784,
  823350366604888924224,
  823350366604888924224,
  821045086820506542144,
  821045086820506542144,
  821045086545628651584,
  821045086545628651584,
  675812443087109365824,
  675812443087109365824,
  675812442949703966784,
  675812442949703966784,
  675812443084962406464,
  675812443084962406464,
  675812442947557007424,
  675812442947557007424,
  823350366879766814784,
  823350366879766814784,
  823350366742361415744,
  823350366742361415744,
  823350366877619855424,
  823350366877619855424,
  823350366740214456384,
  823350366740214456384,
  675812443087109365824,
  675812443087109365824,
  675812442949703966784,
  675812442949703966784,
  823350366879766814784,
  823350366879766814784,
  823350366742361415744,
  823350366742361415744,
  823350366879766814784,
  823350366879766814784,
  823350366742361415744,
  823350366742361415744,
  821045086820506542144,
  821045086820506542144,
  821045086683101143104,
  821045086683101143104,
  823350366879766814784,
  823350366879766814784,
  821045086820506542144,
  821045086820506542144,
  823350366879766814784,
  823350366879766814784,
  673507163027849093184,
  673507163027849093184,
  823350366879766814784,
  823350366879766814784,
  823350366742361415744,
  823350366742361415744,
  673507163027849093184,
  673507163027849093184,
  673507162890443694144,
  673507162890443694144,
  823350366879766814784,
  823350366879766814784,
  821045086820506542144,
  821045086820506542144,
  823350366879766814784,
  823350366879766814784,
  673507163027849093184,
  673507163027849093184,
  823350366879766814784,
  823350366879766814784,
  821045086820506542144,
  821045086820506542144,
  823350366879766814784,
  823350366879766814784,
  673507163027849093184,
  673507163027849093184,
  823350366879766814784,
  823350366879766814784,
  673507163027849093184,
  673507163027849093184,
  821045086820506542144,
  821045086820506542144,
  821045086820506542144,
  821045086820506542144,
  821045086820472995904,
  821045086820472995904,
  675812443087109365824,
  675812443087109365824,
  821045086820506542144,
  821045086820506542144,
  673507163027849093184,
  673507163027849093184,
  673507163027849093184,
  673507163027849093184,
  673507163027815546944,
  673507163027815546944,
  675812443087109365824,
  675812443087109365824,
  675812443087075819584,
  675812443087075819584,
  675812443087109365824,
  675812443087109365824,
  821045086820506542144,
  821045086820506542144,
  673507163027849093184,
  673507163027849093184,
  823350366879766814784,
  823350366879766814784,
  823350366879733268544,
  823350366879733268544,
  821045086820506542144,
  821045086820506542144,
  821045086820472995904,
  821045086820472995904,
  821045086820506542144,
  821045086820506542144,
  821045086683101143104,
  821045086683101143104,
  823350366879766814784,
  823350366879766814784,
  823350366742361415744,
  823350366742361415744,
  675812443087109365824,
  675812443087109365824,
  821045086820506542144,
  821045086820506542144,
  673507163027849093184,
  673507163027849093184]
def ccsdtqT2cubed_t4_abbbabbb_cert_3 : List Nat := [673507163027849093184,
  673507163027849093184,
  675812443087109365824,
  675812443087109365824,
  821045086820506542144,
  821045086820506542144,
  823350366879766814784,
  823350366879766814784,
  823350366879766814784,
  823350366879766814784,
  823350366604888924224,
  823350366604888924224,
  821045086820506542144,
  821045086820506542144,
  821045086545628651584,
  821045086545628651584,
  823350366879766814784,
  823350366879766814784,
  823350366742361415744,
  823350366742361415744,
  821045086820506542144,
  821045086820506542144,
  821045086683101143104,
  821045086683101143104,
  823350366879766814784,
  823350366879766814784,
  821045086820506542144,
  821045086820506542144,
  823350366879766814784,
  823350366879766814784,
  673507163027849093184,
  673507163027849093184,
  823350366879766814784,
  823350366879766814784,
  823350366742361415744,
  823350366742361415744,
  673507163027849093184,
  673507163027849093184,
  673507162890443694144,
  673507162890443694144,
  823350366879766814784,
  823350366879766814784,
  821045086820506542144,
  821045086820506542144,
  823350366879766814784,
  823350366879766814784,
  673507163027849093184,
  673507163027849093184,
  823350366879766814784,
  823350366879766814784,
  821045086820506542144,
  821045086820506542144,
  823350366879766814784,
  823350366879766814784,
  673507163027849093184,
  673507163027849093184,
  823350366879766814784,
  823350366879766814784,
  673507163027849093184,
  673507163027849093184,
  821045086820506542144,
  821045086820506542144,
  821045086820506542144,
  821045086820506542144,
  821045086820472995904,
  821045086820472995904,
  675812443087109365824,
  675812443087109365824,
  821045086820506542144,
  821045086820506542144,
  673507163027849093184,
  673507163027849093184,
  673507163027849093184,
  673507163027849093184,
  673507163027815546944,
  673507163027815546944,
  675812443087109365824,
  675812443087109365824,
  675812443087075819584,
  675812443087075819584,
  675812443087109365824,
  675812443087109365824,
  821045086820506542144,
  821045086820506542144,
  673507163027849093184,
  673507163027849093184,
  823350366879766814784,
  823350366879766814784,
  823350366879733268544,
  823350366879733268544,
  821045086820506542144,
  821045086820506542144,
  821045086820472995904,
  821045086820472995904,
  821045086820506542144,
  821045086820506542144,
  821045086683101143104,
  821045086683101143104,
  823350366879766814784,
  823350366879766814784,
  823350366742361415744,
  823350366742361415744,
  675812443087109365824,
  675812443087109365824,
  821045086820506542144,
  821045086820506542144,
  673507163027849093184,
  673507163027849093184,
  673507163027849093184,
  673507163027849093184,
  675812443087109365824,
  675812443087109365824,
  821045086820506542144,
  821045086820506542144,
  823350366879766814784,
  823350366879766814784,
  823350366879766814784,
  823350366879766814784,
  823350366604888924224,
  823350366604888924224,
  821045086820506542144,
  821045086820506542144,
  821045086545628651584,
  821045086545628651584,
  823350366879766814784,
  823350366879766814784,
  823350366742361415744,
  823350366742361415744,
  821045086820506542144,
  821045086820506542144,
  821045086683101143104,
  821045086683101143104]

/-- Check ccsdtqT2cubed_t4_abbbabbb. C83 -/
theorem ccsdtqT2cubed_t4_abbbabbb : isZeroSpin kinds [aᵥ, bᵥ, cᵥ, dᵥ, iₒ, jₒ, kₒ, lₒ] 4 [false, true, true, true, false, true, true, true]
    (Prog.outs [4, 5, 6, 7, 0, 1, 2, 3] (Prog.thin split_cub_t4 (Prog.part [[23, 39, 39, 39]] (wnT2cubed_toT4_0))))
    (Prog.scale (-1) (ccsdtqT2cubed_t4_abbbabbb))
    (ccsdtqT2cubed_t4_abbbabbb_cert_0 ++ (ccsdtqT2cubed_t4_abbbabbb_cert_1 ++ (ccsdtqT2cubed_t4_abbbabbb_cert_2 ++ (ccsdtqT2cubed_t4_abbbabbb_cert_3)))) = true := by decide +kernel

def ccsdtqT2cubed_t4_bbbbbbbb_cert_0 : List Nat := [823350366879766814784,
  823350366879766814784,
  823350366879733268544,
  823350366879733268544,
  823350366742294323264,
  823350366604922470464,
  823350366879766806594,
  823350366879766806594,
  823350366879733252164,
  823350366879699714114,
  823350366742294298694,
  823350366467483516994,
  823350366879699714114,
  823350366879733252164,
  823350366742260768834,
  823350366604922454084,
  823350366879699705924,
  823350366879699705924,
  823350366742260752454,
  823350366467483508804,
  823350366604821815364,
  823350366604821815364,
  823350366604821807174,
  823350366467416416324,
  823350366877619855424,
  823350366877619855424,
  823350366877586309184,
  823350366877586309184,
  823350366740147363904,
  823350366602775511104,
  823350366877619847234,
  823350366877619847234,
  823350366877586292804,
  823350366877552754754,
  823350366740147339334,
  823350366465336557634,
  823350366877552754754,
  823350366877586292804,
  823350366740113809474,
  823350366602775494724,
  823350366877552746564,
  823350366877552746564,
  823350366740113793094,
  823350366465336549444,
  823350366602674856004,
  823350366602674856004,
  823350366602674847814,
  823350366465269456964,
  823350358081527357504,
  823350349289728778304,
  823350358081493811264,
  823350349289695232064,
  823350357944054865984,
  823350349014884433984,
  823350358081527349314,
  823350349289728770114,
  823350358081493794884,
  823350349289661677634,
  823350357944054841414,
  823350348877445480514,
  823350358081460256834,
  823350349289695215684,
  823350357944021311554,
  823350349014884417604,
  823350358081460248644,
  823350349289661669444,
  823350357944021295174,
  823350348877445472324,
  823350357806582358084,
  823350349014783778884,
  823350357806582349894,
  823350348877378379844,
  821045086816212099264,
  821045086818358534464,
  821045086816178553024,
  821045086818324988224,
  821045086678739607744,
  821045086543514190144,
  821045086816212091074,
  821045086818358526274,
  821045086816178536644,
  821045086818291433794,
  821045086678739583174,
  821045086406075236674,
  821045086816144998594,
  821045086818324971844,
  821045086678706053314,
  821045086543514173764,
  821045086816144990404,
  821045086818291425604,
  821045086678706036934,
  821045086406075228484,
  821045086541267099844,
  821045086543413535044,
  821045086541267091654,
  821045086406008136004,
  821045078020119601344,
  821045069230467457344,
  821045078020086055104,
  821045069230433911104,
  821045077882647109824,
  821045068955623113024,
  821045078020119593154,
  821045069230467449154,
  821045078020086038724,
  821045069230400356674,
  821045077882647085254,
  821045068818184159554,
  821045078020052500674,
  821045069230433894724,
  821045077882613555394,
  821045068955623096644,
  821045078020052492484,
  821045069230400348484,
  821045077882613539014,
  821045068818184151364,
  821045077745174601924,
  821045068955522457924,
  821045077745174593734,
  821045068818117058884,
  821045069224026579264,
  821045069224026579264,
  821045069223993033024,
  821045069223993033024,
  821045069086554087744,
  821045068949182234944,
  821045069224026571074,
  821045069224026571074,
  821045069223993016644,
  821045069223959478594,
  821045069086554063174,
  821045068811743281474,
  821045069223959478594,
  821045069223993016644,
  821045069086520533314,
  821045068949182218564,
  821045069223959470404,
  821045069223959470404,
  821045069086520516934,
  821045068811743273284,
  821045068949081579844,
  821045068949081579844,
  821045068949081571654,
  821045068811676180804,
  673507163027849093184,
  673507163027849093184,
  821045086820506542144,
  821045086820506542144,
  673507162890443694144,
  673507162890443694144,
  821045086683101143104,
  821045086683101143104,
  673507162753004748864,
  673507162890376601664,
  821045086545662197824,
  821045086683034050624,
  673507163027849084994,
  673507163027849084994,
  821045086820506533954,
  821045086820506533954,
  673507162890443685954,
  673507162890443685954,
  821045086683101134914,
  821045086683101134914,
  673507163027815530564,
  673507163027781992514,
  821045086820472979524,
  821045086820439441474,
  673507162890376577094,
  673507162615565795394,
  821045086683034026054,
  821045086408223244354,
  673507162753004732484,
  673507162890343047234,
  821045086545662181444,
  821045086683000496194,
  673507162752971178054,
  673507162615532249154,
  821045086545628627014,
  821045086408189698114,
  673507162615565795394,
  673507162890376577094,
  821045086408223244354,
  821045086683034026054,
  673507162615565787204,
  673507162890343030854,
  821045086408223236164,
  821045086683000479814,
  673507162615532232774,
  673507162615532232774,
  821045086408189681734,
  821045086408189681734,
  673507154233903554624,
  673507154233903554624,
  673507154233903554624,
  673507154233903554624,
  673507154096498155584,
  673507154096498155584,
  673507154096498155584,
  673507154096498155584,
  673507153959059210304,
  673507154096431063104,
  673507153959059210304,
  673507154096431063104,
  673507154233903546434,
  673507154233903546434,
  673507154233903546434,
  673507154233903546434,
  673507154096498147394,
  673507154096498147394,
  673507154096498147394,
  673507154096498147394,
  673507154233869992004,
  673507154233836453954,
  673507154233869992004,
  673507154233836453954,
  673507154096431038534,
  673507153821620256834,
  673507154096431038534,
  673507153821620256834,
  673507153959059193924,
  673507154096397508674,
  673507153959059193924,
  673507154096397508674,
  673507153959025639494,
  673507153821586710594,
  673507153959025639494,
  673507153821586710594,
  673507153821620256834,
  673507154096431038534,
  673507153821620256834,
  673507154096431038534,
  673507153821620248644,
  673507154096397492294,
  673507153821620248644,
  673507154096397492294,
  673507153821586694214,
  673507153821586694214,
  673507153821586694214,
  673507153821586694214,
  673507163025702133824,
  673507163025702133824,
  821045086818359582784,
  821045086818359582784,
  673507162888296734784,
  673507162888296734784,
  821045086680954183744,
  821045086680954183744,
  673507162750857789504,
  673507162888229642304,
  821045086543515238464,
  821045086680887091264,
  673507163025702125634,
  673507163025702125634,
  821045086818359574594,
  821045086818359574594,
  673507162888296726594,
  673507162888296726594,
  821045086680954175554,
  821045086680954175554,
  673507163025668571204,
  673507163025635033154,
  821045086818326020164,
  821045086818292482114,
  673507162888229617734,
  673507162613418836034,
  821045086680887066694,
  821045086406076284994,
  673507162750857773124,
  673507162888196087874,
  821045086543515222084,
  821045086680853536834,
  673507162750824218694,
  673507162613385289794,
  821045086543481667654,
  821045086406042738754,
  673507162613418836034,
  673507162888229617734,
  821045086406076284994,
  821045086680887066694,
  673507162613418827844,
  673507162888196071494,
  821045086406076276804,
  821045086680853520454,
  673507162613385273414,
  673507162613385273414,
  821045086406042722374,
  821045086406042722374,
  673507154229609635904,
  673507145437811056704,
  821045078022267084864,
  821045069230468505664,
  673507154092204236864,
  673507145300405657664,
  821045077884861685824,
  821045069093063106624,
  673507153954765291584,
  673507145300338565184,
  821045077747422740544,
  821045069092996014144,
  673507154229609627714,
  673507145437811048514,
  821045078022267076674,
  821045069230468497474,
  673507154092204228674,
  673507145300405649474,
  821045077884861677634,
  821045069093063098434,
  673507154229576073284,
  673507145437743956034,
  821045078022233522244,
  821045069230401404994,
  673507154092137119814,
  673507145025527758914,
  821045077884794568774,
  821045068818185207874,
  673507153954765275204,
  673507145300305010754,
  821045077747422724164,
  821045069092962459714,
  673507153954731720774,
  673507145025494212674,
  821045077747389169734,
  821045068818151661634,
  673507153817326338114,
  673507145300338540614,
  821045077609983787074,
  821045069092995989574,
  673507153817326329924,
  673507145300304994374,
  821045077609983778884,
  821045069092962443334,
  673507153817292775494,
  673507145025494196294,
  821045077609950224454,
  821045068818151645254,
  673507145437811056704,
  673507154229609635904,
  673507145437811056704,
  673507154229609635904,
  673507145300405657664,
  673507154092204236864,
  673507145300405657664,
  673507154092204236864,
  673507145162966712384,
  673507154092137144384,
  673507145162966712384,
  673507154092137144384,
  673507145437811048514,
  673507154229609627714,
  673507145437811048514,
  673507154229609627714,
  673507145300405649474,
  673507154092204228674,
  673507145300405649474,
  673507154092204228674,
  673507145437777494084,
  673507154229542535234,
  673507145437777494084,
  673507154229542535234,
  673507145300338540614,
  673507153817326338114,
  673507145300338540614,
  673507153817326338114,
  673507145162966696004,
  673507154092103589954,
  673507145162966696004,
  673507154092103589954,
  673507145162933141574,
  673507153817292791874,
  673507145162933141574,
  673507153817292791874,
  673507145025527758914,
  673507154092137119814,
  673507145025527758914,
  673507154092137119814,
  673507145025527750724,
  673507154092103573574,
  673507145025527750724,
  673507154092103573574,
  673507145025494196294,
  673507153817292775494,
  673507145025494196294,
  673507153817292775494,
  673507145435664097344,
  673507145435664097344,
  673507145435664097344,
  673507145435664097344,
  673507145298258698304,
  673507145298258698304,
  673507145298258698304,
  673507145298258698304,
  673507145160819753024,
  673507145298191605824,
  673507145160819753024,
  673507145298191605824,
  673507145435664089154,
  673507145435664089154,
  673507145435664089154,
  673507145435664089154]
def ccsdtqT2cubed_t4_bbbbbbbb_cert_1 : List Nat := [673507145298258690114,
  673507145298258690114,
  673507145298258690114,
  673507145298258690114,
  673507145435630534724,
  673507145435596996674,
  673507145435630534724,
  673507145435596996674,
  673507145298191581254,
  673507145023380799554,
  673507145298191581254,
  673507145023380799554,
  673507145160819736644,
  673507145298158051394,
  673507145160819736644,
  673507145298158051394,
  673507145160786182214,
  673507145023347253314,
  673507145160786182214,
  673507145023347253314,
  673507145023380799554,
  673507145298191581254,
  673507145023380799554,
  673507145298191581254,
  673507145023380791364,
  673507145298158035014,
  673507145023380791364,
  673507145298158035014,
  673507145023347236934,
  673507145023347236934,
  673507145023347236934,
  673507145023347236934,
  673507163023554650304,
  673507163025701085504,
  821045086816212099264,
  821045086818358534464,
  673507162886149251264,
  673507162888295686464,
  821045086678806700224,
  821045086680953135424,
  673507162748710305984,
  673507162888228593984,
  821045086541367754944,
  821045086680886042944,
  673507163023554642114,
  673507163025701077314,
  821045086816212091074,
  821045086818358526274,
  673507162886149243074,
  673507162888295678274,
  821045086678806692034,
  821045086680953127234,
  673507163023521087684,
  673507163025633984834,
  821045086816178536644,
  821045086818291433794,
  673507162886082134214,
  673507162613417787714,
  821045086678739583174,
  821045086406075236674,
  673507162748710289604,
  673507162888195039554,
  821045086541367738564,
  821045086680852488514,
  673507162748676735174,
  673507162613384241474,
  821045086541334184134,
  821045086406041690434,
  673507162611271352514,
  673507162888228569414,
  821045086403928801474,
  821045086680886018374,
  673507162611271344324,
  673507162888195023174,
  821045086403928793284,
  821045086680852472134,
  673507162611237789894,
  673507162613384225094,
  821045086403895238854,
  821045086406041674054,
  673507154227462152384,
  673507145437810008384,
  821045078020119601344,
  821045069230467457344,
  673507154090056753344,
  673507145300404609344,
  821045077882714202304,
  821045069093062058304,
  673507153952617808064,
  673507145300337516864,
  821045077745275257024,
  821045069092994965824,
  673507154227462144194,
  673507145437810000194,
  821045078020119593154,
  821045069230467449154,
  673507154090056745154,
  673507145300404601154,
  821045077882714194114,
  821045069093062050114,
  673507154227428589764,
  673507145437742907714,
  821045078020086038724,
  821045069230400356674,
  673507154089989636294,
  673507145025526710594,
  821045077882647085254,
  821045068818184159554,
  673507153952617791684,
  673507145300303962434,
  821045077745275240644,
  821045069092961411394,
  673507153952584237254,
  673507145025493164354,
  821045077745241686214,
  821045068818150613314,
  673507153815178854594,
  673507145300337492294,
  821045077607836303554,
  821045069092994941254,
  673507153815178846404,
  673507145300303946054,
  821045077607836295364,
  821045069092961395014,
  673507153815145291974,
  673507145025493147974,
  821045077607802740934,
  821045068818150596934,
  673507145431369130304,
  673507145431369130304,
  821045069224026579264,
  821045069224026579264,
  673507145293963731264,
  673507145293963731264,
  821045069086621180224,
  821045069086621180224,
  673507145156524785984,
  673507145293896638784,
  821045068949182234944,
  821045069086554087744,
  673507145431369122114,
  673507145431369122114,
  821045069224026571074,
  821045069224026571074,
  673507145293963723074,
  673507145293963723074,
  821045069086621172034,
  821045069086621172034,
  673507145431335567684,
  673507145431302029634,
  821045069223993016644,
  821045069223959478594,
  673507145293896614214,
  673507145019085832514,
  821045069086554063174,
  821045068811743281474,
  673507145156524769604,
  673507145293863084354,
  821045068949182218564,
  821045069086520533314,
  673507145156491215174,
  673507145019052286274,
  821045068949148664134,
  821045068811709735234,
  673507145019085832514,
  673507145293896614214,
  821045068811743281474,
  821045069086554063174,
  673507145019085824324,
  673507145293863067974,
  821045068811743273284,
  821045069086520516934,
  673507145019052269894,
  673507145019052269894,
  821045068811709718854,
  821045068811709718854,
  673507136641718034624,
  673507154229608063424,
  673507136641718034624,
  673507154229608063424,
  673507136504312635584,
  673507154092202664384,
  673507136504312635584,
  673507154092202664384,
  673507136366873690304,
  673507154092135571904,
  673507136366873690304,
  673507154092135571904,
  673507136641718026434,
  673507154229608055234,
  673507136641718026434,
  673507154229608055234,
  673507136504312627394,
  673507154092202656194,
  673507136504312627394,
  673507154092202656194,
  673507136641684472004,
  673507154229540962754,
  673507136641684472004,
  673507154229540962754,
  673507136504245518534,
  673507153817324765634,
  673507136504245518534,
  673507153817324765634,
  673507136366873673924,
  673507154092102017474,
  673507136366873673924,
  673507154092102017474,
  673507136366840119494,
  673507153817291219394,
  673507136366840119494,
  673507153817291219394,
  673507136229434736834,
  673507154092135547334,
  673507136229434736834,
  673507154092135547334,
  673507136229434728644,
  673507154092102001094,
  673507136229434728644,
  673507154092102001094,
  673507136229401174214,
  673507153817291203014,
  673507136229401174214,
  673507153817291203014,
  673507136639571075264,
  673507145435662524864,
  673507136639571075264,
  673507145435662524864,
  673507136502165676224,
  673507145298257125824,
  673507136502165676224,
  673507145298257125824,
  673507136364726730944,
  673507145298190033344,
  673507136364726730944,
  673507145298190033344,
  673507136639571067074,
  673507145435662516674,
  673507136639571067074,
  673507145435662516674,
  673507136502165668034,
  673507145298257117634,
  673507136502165668034,
  673507145298257117634,
  673507136639537512644,
  673507145435595424194,
  673507136639537512644,
  673507145435595424194,
  673507136502098559174,
  673507145023379227074,
  673507136502098559174,
  673507145023379227074,
  673507136364726714564,
  673507145298156478914,
  673507136364726714564,
  673507145298156478914,
  673507136364693160134,
  673507145023345680834,
  673507136364693160134,
  673507145023345680834,
  673507136227287777474,
  673507145298190008774,
  673507136227287777474,
  673507145298190008774,
  673507136227287769284,
  673507145298156462534,
  673507136227287769284,
  673507145298156462534,
  673507136227254214854,
  673507145023345664454,
  673507136227254214854,
  673507145023345664454,
  673507136637423591744,
  673507145431368606144,
  673507136637423591744,
  673507145431368606144,
  673507136500018192704,
  673507145293963207104,
  673507136500018192704,
  673507145293963207104,
  673507136362579247424,
  673507145293896114624,
  673507136362579247424,
  673507145293896114624,
  673507136637423583554,
  673507145431368597954,
  673507136637423583554,
  673507145431368597954,
  673507136500018184514,
  673507145293963198914,
  673507136500018184514,
  673507145293963198914,
  673507136637390029124,
  673507145431301505474,
  673507136637390029124,
  673507145431301505474,
  673507136499951075654,
  673507145019085308354,
  673507136499951075654,
  673507145019085308354,
  673507136362579231044,
  673507145293862560194,
  673507136362579231044,
  673507145293862560194,
  673507136362545676614,
  673507145019051762114,
  673507136362545676614,
  673507145019051762114,
  673507136225140293954,
  673507145293896090054,
  673507136225140293954,
  673507145293896090054,
  673507136225140285764,
  673507145293862543814,
  673507136225140285764,
  673507145293862543814,
  673507136225106731334,
  673507145019051745734,
  673507136225106731334,
  673507145019051745734,
  823350366879766814784,
  823350366879766814784,
  823350366879733268544,
  823350366879733268544,
  823350366742294323264,
  823350366604922470464,
  823350366879699714114,
  823350366879733252164,
  823350366742260768834,
  823350366604922454084,
  823350366604821815364,
  823350366604821815364,
  675812434293163827264,
  675812434293163827264,
  675812434293130281024,
  675812434293130281024,
  675812434155691335744,
  675812434018319482944,
  675812434293096726594,
  675812434293130264644,
  675812434155657781314,
  675812434018319466564,
  675812434018218827844,
  675812434018218827844,
  823350366877619855424,
  823350366877619855424,
  823350366877586309184,
  823350366877586309184,
  823350366740147363904,
  823350366602775511104,
  823350366877552754754,
  823350366877586292804,
  823350366740113809474,
  823350366602775494724,
  823350366602674856004,
  823350366602674856004,
  823350358081527357504,
  823350349289728778304,
  823350358081493811264,
  823350349289695232064,
  823350357944054865984,
  823350349014884433984,
  823350358081460256834,
  823350349289695215684,
  823350357944021311554,
  823350349014884417604,
  823350357806582358084,
  823350349014783778884,
  675812425497071329344,
  675812434288869908544,
  675812425497037783104,
  675812434288836362304,
  675812425359598837824,
  675812434014025564224,
  675812425497004228674,
  675812434288836345924,
  675812425359565283394,
  675812434014025547844,
  675812425222126329924,
  675812434013924909124,
  675812425494924369984,
  675812425494924369984,
  675812425494890823744,
  675812425494890823744,
  675812425357451878464,
  675812425220080025664,
  675812425494857269314,
  675812425494890807364,
  675812425357418324034,
  675812425220080009284,
  675812425219979370564,
  675812425219979370564,
  823350366875472371904,
  823350366877618807104,
  823350366875438825664,
  823350366877585260864,
  823350366737999880384,
  823350366602774462784,
  823350366875405271234,
  823350366877585244484]
def ccsdtqT2cubed_t4_bbbbbbbb_cert_2 : List Nat := [823350366737966325954,
  823350366602774446404,
  823350366600527372484,
  823350366602673807684,
  823350358079379873984,
  823350349289727729984,
  823350358079346327744,
  823350349289694183744,
  823350357941907382464,
  823350349014883385664,
  823350358079312773314,
  823350349289694167364,
  823350357941873828034,
  823350349014883369284,
  823350357804434874564,
  823350349014782730564,
  823350349283286851904,
  823350349283286851904,
  823350349283253305664,
  823350349283253305664,
  823350349145814360384,
  823350349008442507584,
  823350349283219751234,
  823350349283253289284,
  823350349145780805954,
  823350349008442491204,
  823350349008341852484,
  823350349008341852484,
  675812416700978307264,
  675812434288868336064,
  675812416700944761024,
  675812434288834789824,
  675812416563505815744,
  675812434014023991744,
  675812416700911206594,
  675812434288834773444,
  675812416563472261314,
  675812434014023975364,
  675812416426033307844,
  675812434013923336644,
  675812416698831347904,
  675812425494922797504,
  675812416698797801664,
  675812425494889251264,
  675812416561358856384,
  675812425220078453184,
  675812416698764247234,
  675812425494889234884,
  675812416561325301954,
  675812425220078436804,
  675812416423886348484,
  675812425219977798084,
  675812416696683864384,
  675812425490628878784,
  675812416696650318144,
  675812425490595332544,
  675812416559211372864,
  675812425215784534464,
  675812416696616763714,
  675812425490595316164,
  675812416559177818434,
  675812425215784518084,
  675812416421738864964,
  675812425215683879364,
  823350366879766814784,
  823350366879766814784,
  823350366879766806594,
  823350366879766806594,
  823350366877619855424,
  823350366877619855424,
  823350366877619847234,
  823350366877619847234,
  823350366879766814784,
  823350366879766814784,
  823350366879766806594,
  823350366879766806594,
  823350366879766814784,
  823350366879766814784,
  823350366879699705924,
  823350366879699705924,
  823350366877619855424,
  823350366877619855424,
  823350366877552746564,
  823350366877552746564,
  823350366879766814784,
  823350366879766814784,
  823350366879699705924,
  823350366879699705924,
  823350366879766814784,
  823350366879766814784,
  823350366879733268544,
  823350366879733268544,
  823350366877619855424,
  823350366877619855424,
  823350366877586309184,
  823350366877586309184,
  823350366879766814784,
  823350366879766814784,
  823350366879733268544,
  823350366879733268544,
  823350366879766814784,
  823350366879766814784,
  823350366467449954374,
  823350366467449954374,
  823350366877619855424,
  823350366877619855424,
  823350366465302995014,
  823350366465302995014,
  823350366879766814784,
  823350366879766814784,
  823350366467449954374,
  823350366467449954374,
  823350366879766814784,
  823350366879766814784,
  823350366604888924224,
  823350366604888924224,
  823350366877619855424,
  823350366877619855424,
  823350366602741964864,
  823350366602741964864,
  823350366879766814784,
  823350366879766814784,
  823350366604888924224,
  823350366604888924224,
  823350366879766814784,
  823350366879766814784,
  823350366742361415744,
  823350366742361415744,
  823350366877619855424,
  823350366877619855424,
  823350366740214456384,
  823350366740214456384,
  823350366879766814784,
  823350366879766814784,
  823350366742361415744,
  823350366742361415744,
  823350366879766814784,
  823350366879766814784,
  823350366879766806594,
  823350366879766806594,
  823350366877619855424,
  823350366877619855424,
  823350366877619847234,
  823350366877619847234,
  823350366879766814784,
  823350366879766814784,
  823350366879766806594,
  823350366879766806594,
  823350366877619855424,
  823350366877619855424,
  823350366877619847234,
  823350366877619847234,
  823350366879766814784,
  823350366879766814784,
  823350366742361415744,
  823350366742361415744,
  823350366877619855424,
  823350366877619855424,
  823350366740214456384,
  823350366740214456384,
  823350366879766814784,
  823350366879766814784,
  823350366742361415744,
  823350366742361415744,
  823350366877619855424,
  823350366877619855424,
  823350366740214456384,
  823350366740214456384,
  823350366879766814784,
  823350366879766814784,
  823350366879766806594,
  823350366879766806594,
  823350366879766290624,
  823350366879766290624,
  823350366879766282434,
  823350366879766282434,
  823350366879766814784,
  823350366879766814784,
  823350366879766806594,
  823350366879766806594,
  823350366879766290624,
  823350366879766290624,
  823350366879766282434,
  823350366879766282434,
  823350366879766814784,
  823350366879766814784,
  823350366742361415744,
  823350366742361415744,
  823350366879766290624,
  823350366879766290624,
  823350366742360891584,
  823350366742360891584,
  823350366879766814784,
  823350366879766814784,
  823350366742361415744,
  823350366742361415744,
  823350366879766290624,
  823350366879766290624,
  823350366742360891584,
  823350366742360891584,
  823350366879766814784,
  823350366879766814784,
  823350366879766806594,
  823350366879766806594,
  823350366877619855424,
  823350366877619855424,
  823350366877619847234,
  823350366877619847234,
  823350366879766814784,
  823350366879766814784,
  823350366879766806594,
  823350366879766806594,
  823350366877619855424,
  823350366877619855424,
  823350366877619847234,
  823350366877619847234,
  823350366879766814784,
  823350366879766814784,
  823350366879766806594,
  823350366879766806594,
  823350366879766290624,
  823350366879766290624,
  823350366879766282434,
  823350366879766282434,
  823350366879766814784,
  823350366879766814784,
  823350366879766806594,
  823350366879766806594,
  823350366879766290624,
  823350366879766290624,
  823350366879766282434,
  823350366879766282434,
  823350366879766814784,
  823350366879766814784,
  823350366879699705924,
  823350366879699705924,
  823350366877619855424,
  823350366877619855424,
  823350366877552746564,
  823350366877552746564,
  823350366879766814784,
  823350366879766814784,
  823350366879699705924,
  823350366879699705924,
  823350366877619855424,
  823350366877619855424,
  823350366877552746564,
  823350366877552746564,
  823350366879766814784,
  823350366879766814784,
  823350366879766806594,
  823350366879766806594,
  823350366877619855424,
  823350366877619855424,
  823350366877619847234,
  823350366877619847234,
  823350366879766814784,
  823350366879766814784,
  823350366879766806594,
  823350366879766806594,
  823350366877619855424,
  823350366877619855424,
  823350366877619847234,
  823350366877619847234,
  823350366879766814784,
  823350366879766814784,
  823350366879699705924,
  823350366879699705924,
  823350366879766290624,
  823350366879766290624,
  823350366879699181764,
  823350366879699181764,
  823350366879766814784,
  823350366879766814784,
  823350366879699705924,
  823350366879699705924,
  823350366879766290624,
  823350366879766290624,
  823350366879699181764,
  823350366879699181764,
  823350366879766814784,
  823350366879766814784,
  823350366879766806594,
  823350366879766806594,
  823350366879766290624,
  823350366879766290624,
  823350366879766282434,
  823350366879766282434,
  823350366879766814784,
  823350366879766814784,
  823350366879766806594,
  823350366879766806594,
  823350366879766290624,
  823350366879766290624,
  823350366879766282434,
  823350366879766282434,
  823350366879766814784,
  823350366879766814784,
  823350366879733268544,
  823350366879733268544,
  823350366877619855424,
  823350366877619855424,
  823350366877586309184,
  823350366877586309184,
  823350366879766814784,
  823350366879766814784,
  823350366879733268544,
  823350366879733268544,
  823350366877619855424,
  823350366877619855424,
  823350366877586309184,
  823350366877586309184,
  823350366879766814784,
  823350366879766814784,
  823350366879733268544,
  823350366879733268544,
  823350366879766290624,
  823350366879766290624,
  823350366879732744384,
  823350366879732744384,
  823350366879766814784,
  823350366879766814784,
  823350366879733268544,
  823350366879733268544,
  823350366879766290624,
  823350366879766290624,
  823350366879732744384,
  823350366879732744384,
  675812443087109365824,
  675812443087109365824,
  675812443087109357634,
  675812443087109357634,
  675812443084962406464,
  675812443084962406464,
  675812443084962398274,
  675812443084962398274,
  823350366879766814784,
  823350366879766814784,
  823350366879766806594,
  823350366879766806594,
  823350366877619855424,
  823350366877619855424,
  823350366877619847234,
  823350366877619847234,
  821045086820506542144,
  821045086820506542144,
  821045086820472995904,
  821045086820472995904,
  821045086818359582784,
  821045086818359582784,
  821045086818326036544,
  821045086818326036544,
  675812443087109365824,
  675812443087109365824,
  675812443087109357634,
  675812443087109357634,
  675812443087108841664,
  675812443087108841664,
  675812443087108833474,
  675812443087108833474,
  823350366879766814784,
  823350366879766814784,
  823350366879766806594,
  823350366879766806594,
  823350366879766290624,
  823350366879766290624,
  823350366879766282434,
  823350366879766282434,
  821045086820506542144,
  821045086820506542144,
  821045086820472995904,
  821045086820472995904,
  821045086820506017984,
  821045086820506017984,
  821045086820472471744,
  821045086820472471744,
  675812443087109365824,
  675812443087109365824,
  675812443087042256964,
  675812443087042256964,
  675812443084962406464,
  675812443084962406464,
  675812443084895297604,
  675812443084895297604,
  823350366879766814784,
  823350366879766814784,
  823350366879699705924,
  823350366879699705924,
  823350366877619855424,
  823350366877619855424,
  823350366877552746564,
  823350366877552746564,
  675812443087109365824,
  675812443087109365824,
  675812443087042256964,
  675812443087042256964,
  675812443087108841664,
  675812443087108841664,
  675812443087041732804,
  675812443087041732804]
def ccsdtqT2cubed_t4_bbbbbbbb_cert_3 : List Nat := [823350366879766814784,
  823350366879766814784,
  823350366879699705924,
  823350366879699705924,
  823350366879766290624,
  823350366879766290624,
  823350366879699181764,
  823350366879699181764,
  675812443087109365824,
  675812443087109365824,
  675812443087075819584,
  675812443087075819584,
  675812443084962406464,
  675812443084962406464,
  675812443084928860224,
  675812443084928860224,
  823350366879766814784,
  823350366879766814784,
  823350366879733268544,
  823350366879733268544,
  823350366877619855424,
  823350366877619855424,
  823350366877586309184,
  823350366877586309184,
  821045086820506542144,
  821045086820506542144,
  821045086683101143104,
  821045086683101143104,
  821045086818359582784,
  821045086818359582784,
  821045086680954183744,
  821045086680954183744,
  675812443087109365824,
  675812443087109365824,
  675812443087075819584,
  675812443087075819584,
  675812443087108841664,
  675812443087108841664,
  675812443087075295424,
  675812443087075295424,
  823350366879766814784,
  823350366879766814784,
  823350366879733268544,
  823350366879733268544,
  823350366879766290624,
  823350366879766290624,
  823350366879732744384,
  823350366879732744384,
  821045086820506542144,
  821045086820506542144,
  821045086683101143104,
  821045086683101143104,
  821045086820506017984,
  821045086820506017984,
  821045086683100618944,
  821045086683100618944,
  675812443087109365824,
  675812443087109365824,
  675812442674792505414,
  675812442674792505414,
  675812443084962406464,
  675812443084962406464,
  675812442672645546054,
  675812442672645546054,
  823350366879766814784,
  823350366879766814784,
  823350366467449954374,
  823350366467449954374,
  823350366877619855424,
  823350366877619855424,
  823350366465302995014,
  823350366465302995014,
  821045086820506542144,
  821045086820506542144,
  821045086820439433284,
  821045086820439433284,
  821045086818359582784,
  821045086818359582784,
  821045086818292473924,
  821045086818292473924,
  675812443087109365824,
  675812443087109365824,
  675812442674792505414,
  675812442674792505414,
  675812443087108841664,
  675812443087108841664,
  675812442674791981254,
  675812442674791981254,
  823350366879766814784,
  823350366879766814784,
  823350366467449954374,
  823350366467449954374,
  823350366879766290624,
  823350366879766290624,
  823350366467449430214,
  823350366467449430214,
  821045086820506542144,
  821045086820506542144,
  821045086820439433284,
  821045086820439433284,
  821045086820506017984,
  821045086820506017984,
  821045086820438909124,
  821045086820438909124,
  675812443087109365824,
  675812443087109365824,
  675812442812231475264,
  675812442812231475264,
  675812443084962406464,
  675812443084962406464,
  675812442810084515904,
  675812442810084515904,
  823350366879766814784,
  823350366879766814784,
  823350366604888924224,
  823350366604888924224,
  823350366877619855424,
  823350366877619855424,
  823350366602741964864,
  823350366602741964864,
  675812443087109365824,
  675812443087109365824,
  675812442812231475264,
  675812442812231475264,
  675812443087108841664,
  675812443087108841664,
  675812442812230951104,
  675812442812230951104,
  823350366879766814784,
  823350366879766814784,
  823350366604888924224,
  823350366604888924224,
  823350366879766290624,
  823350366879766290624,
  823350366604888400064,
  823350366604888400064,
  675812443087109365824,
  675812443087109365824,
  675812442949703966784,
  675812442949703966784,
  675812443084962406464,
  675812443084962406464,
  675812442947557007424,
  675812442947557007424,
  823350366879766814784,
  823350366879766814784,
  823350366742361415744,
  823350366742361415744,
  823350366877619855424,
  823350366877619855424,
  823350366740214456384,
  823350366740214456384,
  675812443087109365824,
  675812443087109365824,
  675812442949703966784,
  675812442949703966784,
  675812443087108841664,
  675812443087108841664,
  675812442949703442624,
  675812442949703442624,
  823350366879766814784,
  823350366879766814784,
  823350366742361415744,
  823350366742361415744,
  823350366879766290624,
  823350366879766290624,
  823350366742360891584,
  823350366742360891584,
  823350366879766814784,
  823350366879766814784,
  823350366879766806594,
  823350366879766806594,
  823350366879766814784,
  823350366879766814784,
  823350366879766806594,
  823350366879766806594,
  823350366879766814784,
  823350366879766814784,
  823350366742361415744,
  823350366742361415744,
  823350366879766814784,
  823350366879766814784,
  823350366742361415744,
  823350366742361415744,
  823350366879766814784,
  823350366879766814784,
  823350366879766806594,
  823350366879766806594,
  823350366879766814784,
  823350366879766814784,
  823350366879766806594,
  823350366879766806594,
  823350366879766814784,
  823350366879766814784,
  823350366879699705924,
  823350366879699705924,
  823350366879766814784,
  823350366879766814784,
  823350366879699705924,
  823350366879699705924,
  823350366879766814784,
  823350366879766814784,
  823350366879766806594,
  823350366879766806594,
  823350366879766814784,
  823350366879766814784,
  823350366879766806594,
  823350366879766806594,
  823350366879766814784,
  823350366879766814784,
  823350366879733268544,
  823350366879733268544,
  823350366879766814784,
  823350366879766814784,
  823350366879733268544,
  823350366879733268544,
  675812443087109365824,
  675812443087109365824,
  675812443087109357634,
  675812443087109357634,
  823350366879766814784,
  823350366879766814784,
  823350366879766806594,
  823350366879766806594,
  821045086820506542144,
  821045086820506542144,
  821045086820472995904,
  821045086820472995904,
  675812443087109365824,
  675812443087109365824,
  675812443087042256964,
  675812443087042256964,
  823350366879766814784,
  823350366879766814784,
  823350366879699705924,
  823350366879699705924,
  675812443087109365824,
  675812443087109365824,
  675812443087075819584,
  675812443087075819584,
  823350366879766814784,
  823350366879766814784,
  823350366879733268544,
  823350366879733268544,
  821045086820506542144,
  821045086820506542144,
  821045086683101143104,
  821045086683101143104,
  675812443087109365824,
  675812443087109365824,
  675812442674792505414,
  675812442674792505414,
  823350366879766814784,
  823350366879766814784,
  823350366467449954374,
  823350366467449954374,
  821045086820506542144,
  821045086820506542144,
  821045086820439433284,
  821045086820439433284,
  675812443087109365824,
  675812443087109365824,
  675812442812231475264,
  675812442812231475264,
  823350366879766814784,
  823350366879766814784,
  823350366604888924224,
  823350366604888924224,
  675812443087109365824,
  675812443087109365824,
  675812442949703966784,
  675812442949703966784,
  823350366879766814784,
  823350366879766814784,
  823350366742361415744,
  823350366742361415744,
  823350366879766814784,
  823350366879766814784,
  823350366879766806594,
  823350366879766806594,
  823350366879766814784,
  823350366879766814784,
  823350366879766806594,
  823350366879766806594,
  823350366879766814784,
  823350366879766814784,
  823350366742361415744,
  823350366742361415744,
  823350366879766814784,
  823350366879766814784,
  823350366742361415744,
  823350366742361415744,
  823350366879766814784,
  823350366879766814784,
  823350366879766806594,
  823350366879766806594,
  823350366879766814784,
  823350366879766814784,
  823350366879766806594,
  823350366879766806594,
  823350366879766814784,
  823350366879766814784,
  823350366879699705924,
  823350366879699705924,
  823350366879766814784,
  823350366879766814784,
  823350366879699705924,
  823350366879699705924,
  823350366879766814784,
  823350366879766814784,
  823350366879766806594,
  823350366879766806594,
  823350366879766814784,
  823350366879766814784,
  823350366879766806594,
  823350366879766806594,
  823350366879766814784,
  823350366879766814784,
  823350366879733268544,
  823350366879733268544,
  823350366879766814784,
  823350366879766814784,
  823350366879733268544,
  823350366879733268544,
  675812443087109365824,
  675812443087109365824,
  675812443087109357634,
  675812443087109357634,
  823350366879766814784,
  823350366879766814784,
  823350366879766806594,
  823350366879766806594,
  821045086820506542144,
  821045086820506542144,
  821045086820472995904,
  821045086820472995904,
  675812443087109365824,
  675812443087109365824,
  675812443087042256964,
  675812443087042256964,
  823350366879766814784,
  823350366879766814784,
  823350366879699705924,
  823350366879699705924,
  675812443087109365824,
  675812443087109365824,
  675812443087075819584,
  675812443087075819584,
  823350366879766814784,
  823350366879766814784,
  823350366879733268544,
  823350366879733268544,
  821045086820506542144,
  821045086820506542144,
  821045086683101143104,
  821045086683101143104,
  675812443087109365824,
  675812443087109365824,
  675812442674792505414,
  675812442674792505414,
  823350366879766814784,
  823350366879766814784,
  823350366467449954374,
  823350366467449954374,
  821045086820506542144,
  821045086820506542144,
  821045086820439433284,
  821045086820439433284,
  675812443087109365824,
  675812443087109365824,
  675812442812231475264,
  675812442812231475264,
  823350366879766814784,
  823350366879766814784,
  823350366604888924224,
  823350366604888924224,
  675812443087109365824,
  675812443087109365824,
  675812442949703966784,
  675812442949703966784,
  823350366879766814784,
  823350366879766814784,
  823350366742361415744,
  823350366742361415744]

/-- Check ccsdtqT2cubed_t4_bbbbbbbb. C83 -/
theorem ccsdtqT2cubed_t4_bbbbbbbb : isZeroSpin kinds [aᵥ, bᵥ, cᵥ, dᵥ, iₒ, jₒ, kₒ, lₒ] 4 [true, true, true, true, true, true, true, true]
    (Prog.outs [4, 5, 6, 7, 0, 1, 2, 3] (Prog.thin split_cub_t4 (Prog.part [[23, 39, 39, 39]] (wnT2cubed_toT4_0))))
    (Prog.scale (-1) (ccsdtqT2cubed_t4_bbbbbbbb))
    (ccsdtqT2cubed_t4_bbbbbbbb_cert_0 ++ (ccsdtqT2cubed_t4_bbbbbbbb_cert_1 ++ (ccsdtqT2cubed_t4_bbbbbbbb_cert_2 ++ (ccsdtqT2cubed_t4_bbbbbbbb_cert_3)))) = true := by decide +kernel

end Verif.Cert
