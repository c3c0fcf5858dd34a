import Verif.Ein.Ops2
import Verif.Wick.Matrix
import Verif.Wick.Box
import Verif.Gen.Qf

/-! Written by `/verif/tools/gen.py`. Checks of einsum programs. -/

set_option maxRecDepth 100000

namespace Verif.Cert

open Verif.Ein Verif.Ein.N


open Verif.Gen

def residQf1_mat_cert_0 : List Nat := [9226217990700933184,
  9226217990700933184,
  9226209196755394624,
  9226209196755394624,
  11531498047814246464,
  11531498047814246464,
  11531498047814246464,
  11531498047814246464,
  11531480459923169344,
  11531489251721748544,
  11531480459923169344,
  11531489251721748544,
  9226217990700409024,
  9226217990700409024,
  9226209196754870464,
  9226209196754870464,
  11531498047813198144,
  11531498045666762944,
  11531498047813198144,
  11531498045666762944,
  11531480459922121024,
  11531489249574265024,
  11531480459922121024,
  11531489249574265024,
  9226209190312944064,
  9226191604569350464,
  9226209190312944064,
  9226191604569350464,
  9226209190313992384,
  9226200400661848384,
  9226209190313992384,
  9226200400661848384,
  11531480453481242944,
  11531480453481242944,
  11531480453480718784,
  11531471659535704384,
  9226191602421866944,
  9226191602421866944,
  9226191602421866944,
  9226191602421866944,
  11531471659535180224,
  11531471659535180224,
  11531471659535704384,
  11531480453480718784,
  9226191602422915264,
  9226200398514364864,
  9226191602422915264,
  9226200398514364864,
  9226217853295534144,
  9226217853295534144,
  9226209059349995584,
  9226209059349995584,
  11531497910408847424,
  11531497910408847424,
  11531497910408847424,
  11531497910408847424,
  11531480322517770304,
  11531489114316349504,
  11531480322517770304,
  11531489114316349504,
  9226217853295009984,
  9226217853295009984,
  9226209059349471424,
  9226209059349471424,
  11531497910407799104,
  11531497908261363904,
  11531497910407799104,
  11531497908261363904,
  11531480322516721984,
  11531489112168865984,
  11531480322516721984,
  11531489112168865984,
  9226209052907545024,
  9226191467163951424,
  9226209052907545024,
  9226191467163951424,
  9226209052908593344,
  9226200263256449344,
  9226209052908593344,
  9226200263256449344,
  11531480316075843904,
  11531480316075843904,
  11531480316075319744,
  11531471522130305344,
  9226191465016467904,
  9226191465016467904,
  9226191465016467904,
  9226191465016467904,
  11531471522129781184,
  11531471522129781184,
  11531471522130305344,
  11531480316075319744,
  9226191465017516224,
  9226200261108965824,
  9226191465017516224,
  9226200261108965824,
  6919811894061342784,
  2308126288017899584,
  6919803100115804224,
  2308117494072361024,
  9225091951174656064,
  2308689098385408064,
  9225091951174656064,
  2308689098385408064,
  9225074363283578944,
  2308680302292910144,
  9225074363283578944,
  2308680302292910144,
  6919811894060818624,
  2308126288017375424,
  6919803100115280064,
  2308117494071836864,
  9225091951173607744,
  2308689096237924544,
  9225091951173607744,
  2308689096237924544,
  9225074363282530624,
  2308680300145426624,
  9225074363282530624,
  2308680300145426624,
  6919803093673353664,
  2308099901886316864,
  6919803093673353664,
  2308099901886316864,
  6919803093674401984,
  2308108697978814784,
  6919803093674401984,
  2308108697978814784,
  9225074356841652544,
  2308671504052404544,
  9225074356841128384,
  2308662710106865984,
  6919785505782276544,
  2308099899738833344,
  6919785505782276544,
  2308099899738833344,
  9225065562895589824,
  2308662710106341824,
  9225065562896113984,
  2308671504051880384,
  6919785505783324864,
  2308108695831331264,
  6919785505783324864,
  2308108695831331264,
  6919811894061342784,
  2308126288017899584,
  6919803100115804224,
  2308117494072361024,
  9225091951174656064,
  2308689098385408064,
  9225091951174656064,
  2308689098385408064,
  9225074363283578944,
  2308680302292910144,
  9225074363283578944,
  2308680302292910144,
  6919811894060818624,
  2308126288017375424,
  6919803100115280064,
  2308117494071836864,
  9225091951173607744,
  2308689096237924544,
  9225091951173607744,
  2308689096237924544,
  9225074363282530624,
  2308680300145426624,
  9225074363282530624,
  2308680300145426624,
  6919803093673353664,
  2308099901886316864,
  6919803093673353664,
  2308099901886316864,
  6919803093674401984,
  2308108697978814784,
  6919803093674401984,
  2308108697978814784,
  9225074356841652544,
  2308671504052404544,
  9225074356841128384,
  2308662710106865984,
  6919785505782276544,
  2308099899738833344,
  6919785505782276544,
  2308099899738833344,
  9225065562895589824,
  2308662710106341824,
  9225065562896113984,
  2308671504051880384,
  6919785505783324864,
  2308108695831331264,
  6919785505783324864,
  2308108695831331264,
  6919811756655943744,
  2308126287984353344,
  6919802962710405184,
  2308117494038814784,
  9225091813769257024,
  2308689098351861824,
  9225091813769257024,
  2308689098351861824,
  9225074225878179904,
  2308680302259363904,
  9225074225878179904,
  2308680302259363904,
  6919811756655419584,
  2308126287983829184,
  6919802962709881024,
  2308117494038290624,
  9225091813768208704,
  2308689096204378304,
  9225091813768208704,
  2308689096204378304,
  9225074225877131584,
  2308680300111880384,
  9225074225877131584,
  2308680300111880384,
  6919802956267954624,
  2308099901852770624,
  6919802956267954624,
  2308099901852770624,
  6919802956269002944,
  2308108697945268544,
  6919802956269002944,
  2308108697945268544,
  9225074219436253504,
  2308671504018858304,
  9225074219435729344,
  2308662710073319744,
  6919785368376877504,
  2308099899705287104,
  6919785368376877504,
  2308099899705287104,
  9225065425490190784,
  2308662710072795584,
  9225065425490714944,
  2308671504018334144,
  6919785368377925824,
  2308108695797785024,
  6919785368377925824,
  2308108695797785024,
  6919811756655943744,
  2308126287984353344,
  6919802962710405184,
  2308117494038814784,
  9225091813769257024,
  2308689098351861824,
  9225091813769257024,
  2308689098351861824,
  9225074225878179904,
  2308680302259363904,
  9225074225878179904,
  2308680302259363904,
  6919811756655419584,
  2308126287983829184,
  6919802962709881024,
  2308117494038290624,
  9225091813768208704,
  2308689096204378304,
  9225091813768208704,
  2308689096204378304,
  9225074225877131584,
  2308680300111880384,
  9225074225877131584,
  2308680300111880384,
  6919802956267954624,
  2308099901852770624,
  6919802956267954624,
  2308099901852770624,
  6919802956269002944,
  2308108697945268544,
  6919802956269002944,
  2308108697945268544,
  9225074219436253504,
  2308671504018858304,
  9225074219435729344,
  2308662710073319744,
  6919785368376877504,
  2308099899705287104,
  6919785368376877504,
  2308099899705287104,
  9225065425490190784,
  2308662710072795584,
  9225065425490714944,
  2308671504018334144,
  6919785368377925824,
  2308108695797785024,
  6919785368377925824,
  2308108695797785024,
  9226217990700924994,
  9226217990700924994,
  9226209196755386434,
  9226209196755386434,
  11531498047814238274,
  11531498047814238274,
  11531498047814238274,
  11531498047814238274,
  11531480459923161154,
  11531489251721740354,
  11531480459923161154,
  11531489251721740354,
  9226217990700400834,
  9226217990700400834,
  9226209196754862274,
  9226209196754862274,
  11531498047813189954,
  11531498045666754754,
  11531498047813189954,
  11531498045666754754,
  11531480459922112834,
  11531489249574256834,
  11531480459922112834,
  11531489249574256834,
  9226209190312935874,
  9226191604569342274,
  9226209190312935874,
  9226191604569342274,
  9226209190313984194,
  9226200400661840194,
  9226209190313984194,
  9226200400661840194,
  11531480453481234754,
  11531480453481234754,
  11531480453480710594,
  11531471659535696194,
  9226191602421858754,
  9226191602421858754,
  9226191602421858754,
  9226191602421858754,
  11531471659535172034,
  11531471659535172034,
  11531471659535696194,
  11531480453480710594,
  9226191602422907074,
  9226200398514356674,
  9226191602422907074,
  9226200398514356674,
  9226217853295525954,
  9226217853295525954,
  9226209059349987394,
  9226209059349987394,
  11531497910408839234,
  11531497910408839234,
  11531497910408839234,
  11531497910408839234,
  11531480322517762114,
  11531489114316341314,
  11531480322517762114,
  11531489114316341314,
  9226217853295001794,
  9226217853295001794,
  9226209059349463234,
  9226209059349463234,
  11531497910407790914,
  11531497908261355714,
  11531497910407790914,
  11531497908261355714,
  11531480322516713794,
  11531489112168857794,
  11531480322516713794,
  11531489112168857794,
  9226209052907536834,
  9226191467163943234,
  9226209052907536834,
  9226191467163943234,
  9226209052908585154,
  9226200263256441154,
  9226209052908585154,
  9226200263256441154,
  11531480316075835714,
  11531480316075835714,
  11531480316075311554,
  11531471522130297154,
  9226191465016459714,
  9226191465016459714,
  9226191465016459714,
  9226191465016459714,
  11531471522129772994,
  11531471522129772994,
  11531471522130297154,
  11531480316075311554,
  9226191465017508034,
  9226200261108957634,
  9226191465017508034,
  9226200261108957634,
  6919811894061301834,
  2283278804205634,
  6919803100115763274,
  2274484858667074,
  9225091951174615114,
  2846089171714114,
  9225091951174615114,
  2846089171714114,
  9225074363283537994,
  2837293079216194,
  9225074363283537994,
  2837293079216194,
  6919811894060777674,
  2283278803681474,
  6919803100115239114,
  2274484858142914]
def residQf1_mat_cert_1 : List Nat := [9225091951173566794,
  2846087024230594,
  9225091951173566794,
  2846087024230594,
  9225074363282489674,
  2837290931732674,
  9225074363282489674,
  2837290931732674,
  6919803093673312714,
  2256892672622914,
  6919803093673312714,
  2256892672622914,
  6919803093674361034,
  2265688765120834,
  6919803093674361034,
  2265688765120834,
  9225074356841611594,
  2828494838710594,
  9225074356841087434,
  2819700893172034,
  6919785505782235594,
  2256890525139394,
  6919785505782235594,
  2256890525139394,
  9225065562895548874,
  2819700892647874,
  9225065562896073034,
  2828494838186434,
  6919785505783283914,
  2265686617637314,
  6919785505783283914,
  2265686617637314,
  6919811894061301834,
  2283278804205634,
  6919803100115763274,
  2274484858667074,
  9225091951174615114,
  2846089171714114,
  9225091951174615114,
  2846089171714114,
  9225074363283537994,
  2837293079216194,
  9225074363283537994,
  2837293079216194,
  6919811894060777674,
  2283278803681474,
  6919803100115239114,
  2274484858142914,
  9225091951173566794,
  2846087024230594,
  9225091951173566794,
  2846087024230594,
  9225074363282489674,
  2837290931732674,
  9225074363282489674,
  2837290931732674,
  6919803093673312714,
  2256892672622914,
  6919803093673312714,
  2256892672622914,
  6919803093674361034,
  2265688765120834,
  6919803093674361034,
  2265688765120834,
  9225074356841611594,
  2828494838710594,
  9225074356841087434,
  2819700893172034,
  6919785505782235594,
  2256890525139394,
  6919785505782235594,
  2256890525139394,
  9225065562895548874,
  2819700892647874,
  9225065562896073034,
  2828494838186434,
  6919785505783283914,
  2265686617637314,
  6919785505783283914,
  2265686617637314,
  6919811756655902794,
  2283278770659394,
  6919802962710364234,
  2274484825120834,
  9225091813769216074,
  2846089138167874,
  9225091813769216074,
  2846089138167874,
  9225074225878138954,
  2837293045669954,
  9225074225878138954,
  2837293045669954,
  6919811756655378634,
  2283278770135234,
  6919802962709840074,
  2274484824596674,
  9225091813768167754,
  2846086990684354,
  9225091813768167754,
  2846086990684354,
  9225074225877090634,
  2837290898186434,
  9225074225877090634,
  2837290898186434,
  6919802956267913674,
  2256892639076674,
  6919802956267913674,
  2256892639076674,
  6919802956268961994,
  2265688731574594,
  6919802956268961994,
  2265688731574594,
  9225074219436212554,
  2828494805164354,
  9225074219435688394,
  2819700859625794,
  6919785368376836554,
  2256890491593154,
  6919785368376836554,
  2256890491593154,
  9225065425490149834,
  2819700859101634,
  9225065425490673994,
  2828494804640194,
  6919785368377884874,
  2265686584091074,
  6919785368377884874,
  2265686584091074,
  6919811756655902794,
  2283278770659394,
  6919802962710364234,
  2274484825120834,
  9225091813769216074,
  2846089138167874,
  9225091813769216074,
  2846089138167874,
  9225074225878138954,
  2837293045669954,
  9225074225878138954,
  2837293045669954,
  6919811756655378634,
  2283278770135234,
  6919802962709840074,
  2274484824596674,
  9225091813768167754,
  2846086990684354,
  9225091813768167754,
  2846086990684354,
  9225074225877090634,
  2837290898186434,
  9225074225877090634,
  2837290898186434,
  6919802956267913674,
  2256892639076674,
  6919802956267913674,
  2256892639076674,
  6919802956268961994,
  2265688731574594,
  6919802956268961994,
  2265688731574594,
  9225074219436212554,
  2828494805164354,
  9225074219435688394,
  2819700859625794,
  6919785368376836554,
  2256890491593154,
  6919785368376836554,
  2256890491593154,
  9225065425490149834,
  2819700859101634,
  9225065425490673994,
  2828494804640194,
  6919785368377884874,
  2265686584091074,
  6919785368377884874,
  2265686584091074,
  6919811894027755594,
  2283278804197444,
  6919803100082217034,
  2274484858658884,
  9225091951141068874,
  2846089171705924,
  9225091951141068874,
  2846089171705924,
  9225074363249991754,
  2837293079208004,
  9225074363249991754,
  2837293079208004,
  6919811894027231434,
  2283278803673284,
  6919803100081692874,
  2274484858134724,
  9225091951140020554,
  2846087024222404,
  9225091951140020554,
  2846087024222404,
  9225074363248943434,
  2837290931724484,
  9225074363248943434,
  2837290931724484,
  6919803093639766474,
  2256892672614724,
  6919803093639766474,
  2256892672614724,
  6919803093640814794,
  2265688765112644,
  6919803093640814794,
  2265688765112644,
  9225074356808065354,
  2828494838702404,
  9225074356807541194,
  2819700893163844,
  6919785505748689354,
  2256890525131204,
  6919785505748689354,
  2256890525131204,
  9225065562862002634,
  2819700892639684,
  9225065562862526794,
  2828494838178244,
  6919785505749737674,
  2265686617629124,
  6919785505749737674,
  2265686617629124,
  6919811894027755594,
  2283278804197444,
  6919803100082217034,
  2274484858658884,
  9225091951141068874,
  2846089171705924,
  9225091951141068874,
  2846089171705924,
  9225074363249991754,
  2837293079208004,
  9225074363249991754,
  2837293079208004,
  6919811894027231434,
  2283278803673284,
  6919803100081692874,
  2274484858134724,
  9225091951140020554,
  2846087024222404,
  9225091951140020554,
  2846087024222404,
  9225074363248943434,
  2837290931724484,
  9225074363248943434,
  2837290931724484,
  6919803093639766474,
  2256892672614724,
  6919803093639766474,
  2256892672614724,
  6919803093640814794,
  2265688765112644,
  6919803093640814794,
  2265688765112644,
  9225074356808065354,
  2828494838702404,
  9225074356807541194,
  2819700893163844,
  6919785505748689354,
  2256890525131204,
  6919785505748689354,
  2256890525131204,
  9225065562862002634,
  2819700892639684,
  9225065562862526794,
  2828494838178244,
  6919785505749737674,
  2265686617629124,
  6919785505749737674,
  2265686617629124,
  6919811894027788354,
  2308126288017883204,
  6919803100082249794,
  2308117494072344644,
  9225091951141101634,
  2308689098385391684,
  9225091951141101634,
  2308689098385391684,
  9225074363250024514,
  2308680302292893764,
  9225074363250024514,
  2308680302292893764,
  6919811894027264194,
  2308126288017359044,
  6919803100081725634,
  2308117494071820484,
  9225091951140053314,
  2308689096237908164,
  9225091951140053314,
  2308689096237908164,
  9225074363248976194,
  2308680300145410244,
  9225074363248976194,
  2308680300145410244,
  6919803093639799234,
  2308099901886300484,
  6919803093639799234,
  2308099901886300484,
  6919803093640847554,
  2308108697978798404,
  6919803093640847554,
  2308108697978798404,
  9225074356808098114,
  2308671504052388164,
  9225074356807573954,
  2308662710106849604,
  6919785505748722114,
  2308099899738816964,
  6919785505748722114,
  2308099899738816964,
  9225065562862035394,
  2308662710106325444,
  9225065562862559554,
  2308671504051864004,
  6919785505749770434,
  2308108695831314884,
  6919785505749770434,
  2308108695831314884,
  6919811894027788354,
  2308126288017883204,
  6919803100082249794,
  2308117494072344644,
  9225091951141101634,
  2308689098385391684,
  9225091951141101634,
  2308689098385391684,
  9225074363250024514,
  2308680302292893764,
  9225074363250024514,
  2308680302292893764,
  6919811894027264194,
  2308126288017359044,
  6919803100081725634,
  2308117494071820484,
  9225091951140053314,
  2308689096237908164,
  9225091951140053314,
  2308689096237908164,
  9225074363248976194,
  2308680300145410244,
  9225074363248976194,
  2308680300145410244,
  6919803093639799234,
  2308099901886300484,
  6919803093639799234,
  2308099901886300484,
  6919803093640847554,
  2308108697978798404,
  6919803093640847554,
  2308108697978798404,
  9225074356808098114,
  2308671504052388164,
  9225074356807573954,
  2308662710106849604,
  6919785505748722114,
  2308099899738816964,
  6919785505748722114,
  2308099899738816964,
  9225065562862035394,
  2308662710106325444,
  9225065562862559554,
  2308671504051864004,
  6919785505749770434,
  2308108695831314884,
  6919785505749770434,
  2308108695831314884,
  4613405797421711434,
  594291572105284,
  4613397003476172874,
  585497626566724,
  6918685854535032904,
  2305874486090817604,
  6918685854535032904,
  2305874486090817604,
  6918668266643955784,
  2305865689998319684,
  6918668266643955784,
  2305865689998319684,
  4613405797421187274,
  594291571581124,
  4613397003475648714,
  585497626042564,
  6918685854533984584,
  2305874483943334084,
  6918685854533984584,
  2305874483943334084,
  6918668266642907464,
  2305865687850836164,
  6918668266642907464,
  2305865687850836164,
  4613396997033722314,
  567905440522564,
  4613396997033722314,
  567905440522564,
  4613396997034770634,
  576701533020484,
  4613396997034770634,
  576701533020484]
def residQf1_mat_cert_2 : List Nat := [6918668260202029384,
  2305856891757814084,
  6918668260201505224,
  2305848097812275524,
  4613379409142645194,
  567903293039044,
  4613379409142645194,
  567903293039044,
  6918659466255966664,
  2305848097811751364,
  6918659466256490824,
  2305856891757289924,
  4613379409143693514,
  576699385536964,
  4613379409143693514,
  576699385536964,
  4613405797421711434,
  594291572105284,
  4613397003476172874,
  585497626566724,
  6918685854535032904,
  2305874486090817604,
  6918685854535032904,
  2305874486090817604,
  6918668266643955784,
  2305865689998319684,
  6918668266643955784,
  2305865689998319684,
  4613405797421187274,
  594291571581124,
  4613397003475648714,
  585497626042564,
  6918685854533984584,
  2305874483943334084,
  6918685854533984584,
  2305874483943334084,
  6918668266642907464,
  2305865687850836164,
  6918668266642907464,
  2305865687850836164,
  4613396997033722314,
  567905440522564,
  4613396997033722314,
  567905440522564,
  4613396997034770634,
  576701533020484,
  4613396997034770634,
  576701533020484,
  6918668260202029384,
  2305856891757814084,
  6918668260201505224,
  2305848097812275524,
  4613379409142645194,
  567903293039044,
  4613379409142645194,
  567903293039044,
  6918659466255966664,
  2305848097811751364,
  6918659466256490824,
  2305856891757289924,
  4613379409143693514,
  576699385536964,
  4613379409143693514,
  576699385536964,
  6919811619216957514,
  2283278770643014,
  6919802825271418954,
  2274484825104454,
  9225091676330270794,
  2846089138151494,
  9225091676330270794,
  2846089138151494,
  9225074088439193674,
  2837293045653574,
  9225074088439193674,
  2837293045653574,
  6919811619216433354,
  2283278770118854,
  6919802825270894794,
  2274484824580294,
  9225091676329222474,
  2846086990667974,
  9225091676329222474,
  2846086990667974,
  9225074088438145354,
  2837290898170054,
  9225074088438145354,
  2837290898170054,
  6919802818828968394,
  2256892639060294,
  6919802818828968394,
  2256892639060294,
  6919802818830016714,
  2265688731558214,
  6919802818830016714,
  2265688731558214,
  9225074081997267274,
  2828494805147974,
  9225074081996743114,
  2819700859609414,
  6919785230937891274,
  2256890491576774,
  6919785230937891274,
  2256890491576774,
  9225065288051204554,
  2819700859085254,
  9225065288051728714,
  2828494804623814,
  6919785230938939594,
  2265686584074694,
  6919785230938939594,
  2265686584074694,
  6919811619216957514,
  2283278770643014,
  6919802825271418954,
  2274484825104454,
  9225091676330270794,
  2846089138151494,
  9225091676330270794,
  2846089138151494,
  9225074088439193674,
  2837293045653574,
  9225074088439193674,
  2837293045653574,
  6919811619216433354,
  2283278770118854,
  6919802825270894794,
  2274484824580294,
  9225091676329222474,
  2846086990667974,
  9225091676329222474,
  2846086990667974,
  9225074088438145354,
  2837290898170054,
  9225074088438145354,
  2837290898170054,
  6919802818828968394,
  2256892639060294,
  6919802818828968394,
  2256892639060294,
  6919802818830016714,
  2265688731558214,
  6919802818830016714,
  2265688731558214,
  9225074081997267274,
  2828494805147974,
  9225074081996743114,
  2819700859609414,
  6919785230937891274,
  2256890491576774,
  6919785230937891274,
  2256890491576774,
  9225065288051204554,
  2819700859085254,
  9225065288051728714,
  2828494804623814,
  6919785230938939594,
  2265686584074694,
  6919785230938939594,
  2265686584074694,
  4613405660016312394,
  594291572097094,
  4613396866070773834,
  585497626558534,
  6918685717129633864,
  2305874486090809414,
  6918685717129633864,
  2305874486090809414,
  6918668129238556744,
  2305865689998311494,
  6918668129238556744,
  2305865689998311494,
  4613405660015788234,
  594291571572934,
  4613396866070249674,
  585497626034374,
  6918685717128585544,
  2305874483943325894,
  6918685717128585544,
  2305874483943325894,
  6918668129237508424,
  2305865687850827974,
  6918668129237508424,
  2305865687850827974,
  4613396859628323274,
  567905440514374,
  4613396859628323274,
  567905440514374,
  4613396859629371594,
  576701533012294,
  4613396859629371594,
  576701533012294,
  6918668122796630344,
  2305856891757805894,
  6918668122796106184,
  2305848097812267334,
  4613379271737246154,
  567903293030854,
  4613379271737246154,
  567903293030854,
  6918659328850567624,
  2305848097811743174,
  6918659328851091784,
  2305856891757281734,
  4613379271738294474,
  576699385528774,
  4613379271738294474,
  576699385528774,
  4613405660016312394,
  594291572097094,
  4613396866070773834,
  585497626558534,
  6918685717129633864,
  2305874486090809414,
  6918685717129633864,
  2305874486090809414,
  6918668129238556744,
  2305865689998311494,
  6918668129238556744,
  2305865689998311494,
  4613405660015788234,
  594291571572934,
  4613396866070249674,
  585497626034374,
  6918685717128585544,
  2305874483943325894,
  6918685717128585544,
  2305874483943325894,
  6918668129237508424,
  2305865687850827974,
  6918668129237508424,
  2305865687850827974,
  4613396859628323274,
  567905440514374,
  4613396859628323274,
  567905440514374,
  4613396859629371594,
  576701533012294,
  4613396859629371594,
  576701533012294,
  6918668122796630344,
  2305856891757805894,
  6918668122796106184,
  2305848097812267334,
  4613379271737246154,
  567903293030854,
  4613379271737246154,
  567903293030854,
  6918659328850567624,
  2305848097811743174,
  6918659328851091784,
  2305856891757281734,
  4613379271738294474,
  576699385528774,
  4613379271738294474,
  576699385528774,
  6919811619216990274,
  2308126287984328774,
  6919802825271451714,
  2308117494038790214,
  9225091676330303554,
  2308689098351837254,
  9225091676330303554,
  2308689098351837254,
  9225074088439226434,
  2308680302259339334,
  9225074088439226434,
  2308680302259339334,
  6919811619216466114,
  2308126287983804614,
  6919802825270927554,
  2308117494038266054,
  9225091676329255234,
  2308689096204353734,
  9225091676329255234,
  2308689096204353734,
  9225074088438178114,
  2308680300111855814,
  9225074088438178114,
  2308680300111855814,
  6919802818829001154,
  2308099901852746054,
  6919802818829001154,
  2308099901852746054,
  6919802818830049474,
  2308108697945243974,
  6919802818830049474,
  2308108697945243974,
  9225074081997300034,
  2308671504018833734,
  9225074081996775874,
  2308662710073295174,
  6919785230937924034,
  2308099899705262534,
  6919785230937924034,
  2308099899705262534,
  9225065288051237314,
  2308662710072771014,
  9225065288051761474,
  2308671504018309574,
  6919785230938972354,
  2308108695797760454,
  6919785230938972354,
  2308108695797760454,
  6919811619216990274,
  2308126287984328774,
  6919802825271451714,
  2308117494038790214,
  9225091676330303554,
  2308689098351837254,
  9225091676330303554,
  2308689098351837254,
  9225074088439226434,
  2308680302259339334,
  9225074088439226434,
  2308680302259339334,
  6919811619216466114,
  2308126287983804614,
  6919802825270927554,
  2308117494038266054,
  9225091676329255234,
  2308689096204353734,
  9225091676329255234,
  2308689096204353734,
  9225074088438178114,
  2308680300111855814,
  9225074088438178114,
  2308680300111855814,
  6919802818829001154,
  2308099901852746054,
  6919802818829001154,
  2308099901852746054,
  6919802818830049474,
  2308108697945243974,
  6919802818830049474,
  2308108697945243974,
  9225074081997300034,
  2308671504018833734,
  9225074081996775874,
  2308662710073295174,
  6919785230937924034,
  2308099899705262534,
  6919785230937924034,
  2308099899705262534,
  9225065288051237314,
  2308662710072771014,
  9225065288051761474,
  2308671504018309574,
  6919785230938972354,
  2308108695797760454,
  6919785230938972354,
  2308108695797760454,
  127811914335789120,
  91238032246317120,
  127811914335789120,
  91238032246317120,
  127811907894911040,
  55209235227877440,
  127811907894911040,
  55209235227877440,
  91774319077892160,
  55191645189840960,
  91774319077892160,
  55191645189840960,
  127811914335264960,
  91238032245792960,
  127811914335264960,
  91238032245792960,
  127811907892814400,
  19180438208913600,
  127811907892814400,
  19180438208913600,
  91774319075795520,
  19162848170877120,
  91774319075795520,
  19162848170877120,
  127811905745855040,
  19180438208389440,
  127811905745855040,
  19180438208389440,
  127811905747427520,
  55209235226829120,
  127811905747427520,
  55209235226829120,
  91774312635441600,
  55174053003796800,
  91774312634917440,
  19154052077855040,
  91765522983297600,
  19162848169828800,
  91765522983297600,
  19162848169828800,
  91765518689378880,
  19154052077330880,
  91765518689903040,
  55174053003272640,
  91765522984870080,
  55191645188268480,
  91765522984870080,
  55191645188268480]
def residQf1_mat_cert_3 : List Nat := [127811914335789120,
  91238032246317120,
  127811914335789120,
  91238032246317120,
  127811907894911040,
  55209235227877440,
  127811907894911040,
  55209235227877440,
  91774319077892160,
  55191645189840960,
  91774319077892160,
  55191645189840960,
  127811914335264960,
  91238032245792960,
  127811914335264960,
  91238032245792960,
  127811907892814400,
  19180438208913600,
  127811907892814400,
  19180438208913600,
  91774319075795520,
  19162848170877120,
  91774319075795520,
  19162848170877120,
  127811905745855040,
  19180438208389440,
  127811905745855040,
  19180438208389440,
  127811905747427520,
  55209235226829120,
  127811905747427520,
  55209235226829120,
  91774312635441600,
  55174053003796800,
  91774312634917440,
  19154052077855040,
  91765522983297600,
  19162848169828800,
  91765522983297600,
  19162848169828800,
  91765518689378880,
  19154052077330880,
  91765518689903040,
  55174053003272640,
  91765522984870080,
  55191645188268480,
  91765522984870080,
  55191645188268480,
  127811914235150400,
  90675082292904000,
  127811914235150400,
  90675082292904000,
  127811907794272320,
  54646285274464320,
  127811907794272320,
  54646285274464320,
  91774318977253440,
  54628695236427840,
  91774318977253440,
  54628695236427840,
  127811914234626240,
  90675082292379840,
  127811914234626240,
  90675082292379840,
  127811907792175680,
  18617488255500480,
  127811907792175680,
  18617488255500480,
  91774318975156800,
  18599898217464000,
  91774318975156800,
  18599898217464000,
  127811905645216320,
  18617488254976320,
  127811905645216320,
  18617488254976320,
  127811905646788800,
  54646285273416000,
  127811905646788800,
  54646285273416000,
  91774312534802880,
  54611103050383680,
  91774312534278720,
  18591102124441920,
  91765522882658880,
  18599898216415680,
  91765522882658880,
  18599898216415680,
  91765518588740160,
  18591102123917760,
  91765518589264320,
  54611103049859520,
  91765522884231360,
  54628695234855360,
  91765522884231360,
  54628695234855360,
  127811914235150400,
  90675082292904000,
  127811914235150400,
  90675082292904000,
  127811907794272320,
  54646285274464320,
  127811907794272320,
  54646285274464320,
  91774318977253440,
  54628695236427840,
  91774318977253440,
  54628695236427840,
  127811914234626240,
  90675082292379840,
  127811914234626240,
  90675082292379840,
  127811907792175680,
  18617488255500480,
  127811907792175680,
  18617488255500480,
  91774318975156800,
  18599898217464000,
  91774318975156800,
  18599898217464000,
  127811905645216320,
  18617488254976320,
  127811905645216320,
  18617488254976320,
  127811905646788800,
  54646285273416000,
  127811905646788800,
  54646285273416000,
  91774312534802880,
  54611103050383680,
  91774312534278720,
  18591102124441920,
  91765522882658880,
  18599898216415680,
  91765522882658880,
  18599898216415680,
  91765518588740160,
  18591102123917760,
  91765518589264320,
  54611103049859520,
  91765522884231360,
  54628695234855360,
  91765522884231360,
  54628695234855360,
  127248826909884480,
  90674807448559680,
  127248826909884480,
  90674807448559680,
  127248820469006400,
  54646010430120000,
  127248820469006400,
  54646010430120000,
  91211231651987520,
  54628420392083520,
  91211231651987520,
  54628420392083520,
  127248826909360320,
  90674807448035520,
  127248826909360320,
  90674807448035520,
  127248820466909760,
  18617213411156160,
  127248820466909760,
  18617213411156160,
  91211231649890880,
  18599623373119680,
  91211231649890880,
  18599623373119680,
  127248818319950400,
  18617213410632000,
  127248818319950400,
  18617213410632000,
  127248818321522880,
  54646010429071680,
  127248818321522880,
  54646010429071680,
  91211225209536960,
  54610828206039360,
  91211225209012800,
  18590827280097600,
  91202435557392960,
  18599623372071360,
  91202435557392960,
  18599623372071360,
  91202431263474240,
  18590827279573440,
  91202431263998400,
  54610828205515200,
  91202435558965440,
  54628420390511040,
  91202435558965440,
  54628420390511040,
  127248826943430720,
  91237619963027520,
  127248826943430720,
  91237619963027520,
  127248820502552640,
  55208822944587840,
  127248820502552640,
  55208822944587840,
  91211231685533760,
  55191232906551360,
  91211231685533760,
  55191232906551360,
  127248826942906560,
  91237619962503360,
  127248826942906560,
  91237619962503360,
  127248820500456000,
  19180025925624000,
  127248820500456000,
  19180025925624000,
  91211231683437120,
  19162435887587520,
  91211231683437120,
  19162435887587520,
  127248818353496640,
  19180025925099840,
  127248818353496640,
  19180025925099840,
  127248818355069120,
  55208822943539520,
  127248818355069120,
  55208822943539520,
  91211225243083200,
  55173640720507200,
  91211225242559040,
  19153639794565440,
  91202435590939200,
  19162435886539200,
  91202435590939200,
  19162435886539200,
  91202431297020480,
  19153639794041280,
  91202431297544640,
  55173640719983040,
  91202435592511680,
  55191232904978880,
  91202435592511680,
  55191232904978880,
  127811914335780930,
  91238032246308930,
  127811914335780930,
  91238032246308930,
  127811907894902850,
  55209235227869250,
  127811907894902850,
  55209235227869250,
  91774319077883970,
  55191645189832770,
  91774319077883970,
  55191645189832770,
  127811914335256770,
  91238032245784770,
  127811914335256770,
  91238032245784770,
  127811907892806210,
  19180438208905410,
  127811907892806210,
  19180438208905410,
  91774319075787330,
  19162848170868930,
  91774319075787330,
  19162848170868930,
  127811905745846850,
  19180438208381250,
  127811905745846850,
  19180438208381250,
  127811905747419330,
  55209235226820930,
  127811905747419330,
  55209235226820930,
  91774312635433410,
  55174053003788610,
  91774312634909250,
  19154052077846850,
  91765522983289410,
  19162848169820610,
  91765522983289410,
  19162848169820610,
  91765518689370690,
  19154052077322690,
  91765518689894850,
  55174053003264450,
  91765522984861890,
  55191645188260290,
  91765522984861890,
  55191645188260290,
  127811914335780930,
  91238032246308930,
  127811914335780930,
  91238032246308930,
  127811907894902850,
  55209235227869250,
  127811907894902850,
  55209235227869250,
  91774319077883970,
  55191645189832770,
  91774319077883970,
  55191645189832770,
  127811914335256770,
  91238032245784770,
  127811914335256770,
  91238032245784770,
  127811907892806210,
  19180438208905410,
  127811907892806210,
  19180438208905410,
  91774319075787330,
  19162848170868930,
  91774319075787330,
  19162848170868930,
  127811905745846850,
  19180438208381250,
  127811905745846850,
  19180438208381250,
  127811905747419330,
  55209235226820930,
  127811905747419330,
  55209235226820930,
  91774312635433410,
  55174053003788610,
  91774312634909250,
  19154052077846850,
  91765522983289410,
  19162848169820610,
  91765522983289410,
  19162848169820610,
  91765518689370690,
  19154052077322690,
  91765518689894850,
  55174053003264450,
  91765522984861890,
  55191645188260290,
  91765522984861890,
  55191645188260290,
  127811914235117640,
  90112132339482690,
  127811914235117640,
  90112132339482690,
  127811907794239560,
  54083335321043010,
  127811907794239560,
  54083335321043010,
  91774318977220680,
  54065745283006530,
  91774318977220680,
  54065745283006530,
  127811914234593480,
  90112132338958530,
  127811914234593480,
  90112132338958530,
  127811907792142920,
  18054538302079170,
  127811907792142920,
  18054538302079170,
  91774318975124040,
  18036948264042690,
  91774318975124040,
  18036948264042690,
  127811905645183560,
  18054538301555010,
  127811905645183560,
  18054538301555010,
  127811905646756040,
  54083335319994690,
  127811905646756040,
  54083335319994690,
  91774312534770120,
  54048153096962370,
  91774312534245960,
  18028152171020610,
  91765522882626120,
  18036948262994370,
  91765522882626120,
  18036948262994370,
  91765518588707400,
  18028152170496450,
  91765518589231560,
  54048153096438210,
  91765522884198600,
  54065745281434050,
  91765522884198600,
  54065745281434050,
  127811914235117640,
  90112132339482690,
  127811914235117640,
  90112132339482690,
  127811907794239560,
  54083335321043010,
  127811907794239560,
  54083335321043010,
  91774318977220680,
  54065745283006530,
  91774318977220680,
  54065745283006530,
  127811914234593480,
  90112132338958530,
  127811914234593480,
  90112132338958530]
def residQf1_mat_cert_4 : List Nat := [127811907792142920,
  18054538302079170,
  127811907792142920,
  18054538302079170,
  91774318975124040,
  18036948264042690,
  91774318975124040,
  18036948264042690,
  127811905645183560,
  18054538301555010,
  127811905645183560,
  18054538301555010,
  127811905646756040,
  54083335319994690,
  127811905646756040,
  54083335319994690,
  91774312534770120,
  54048153096962370,
  91774312534245960,
  18028152171020610,
  91765522882626120,
  18036948262994370,
  91765522882626120,
  18036948262994370,
  91765518588707400,
  18028152170496450,
  91765518589231560,
  54048153096438210,
  91765522884198600,
  54065745281434050,
  91765522884198600,
  54065745281434050,
  127248826909851720,
  90111857495138370,
  127248826909851720,
  90111857495138370,
  127248820502528070,
  55208685505634370,
  127248820502528070,
  55208685505634370,
  91211231651954760,
  54065470438662210,
  91211231651954760,
  54065470438662210,
  127248826909327560,
  90111857494614210,
  127248826909327560,
  90111857494614210,
  127248820500431430,
  19179888486670530,
  127248820500431430,
  19179888486670530,
  91211231649858120,
  18036673419698370,
  91211231649858120,
  18036673419698370,
  127248818319917640,
  18054263457210690,
  127248818319917640,
  18054263457210690,
  127248818321490120,
  54083060475650370,
  127248818321490120,
  54083060475650370,
  91211225243058630,
  55173503281553730,
  91211225242534470,
  19153502355611970,
  91202435557360200,
  18036673418650050,
  91202435557360200,
  18036673418650050,
  91202431296995910,
  19153502355087810,
  91202431297520070,
  55173503281029570,
  91202435558932680,
  54065470437089730,
  91202435558932680,
  54065470437089730,
  127248826909851720,
  90111857495138370,
  127248826909851720,
  90111857495138370,
  127248820502528070,
  55208685505634370,
  127248820502528070,
  55208685505634370,
  91211231651954760,
  54065470438662210,
  91211231651954760,
  54065470438662210,
  127248826909327560,
  90111857494614210,
  127248826909327560,
  90111857494614210,
  127248820500431430,
  19179888486670530,
  127248820500431430,
  19179888486670530,
  91211231649858120,
  18036673419698370,
  91211231649858120,
  18036673419698370,
  127248818319917640,
  18054263457210690,
  127248818319917640,
  18054263457210690,
  127248818321490120,
  54083060475650370,
  127248818321490120,
  54083060475650370,
  91211225243058630,
  55173503281553730,
  91211225242534470,
  19153502355611970,
  91202435557360200,
  18036673418650050,
  91202435557360200,
  18036673418650050,
  91202431296995910,
  19153502355087810,
  91202431297520070,
  55173503281029570,
  91202435558932680,
  54065470437089730,
  91202435558932680,
  54065470437089730,
  127811914201571400,
  90112132339474500,
  127811914201571400,
  90112132339474500,
  127811907760693320,
  54083335321034820,
  127811907760693320,
  54083335321034820,
  91774318943674440,
  54065745282998340,
  91774318943674440,
  54065745282998340,
  127811914201047240,
  90112132338950340,
  127811914201047240,
  90112132338950340,
  127811907758596680,
  18054538302070980,
  127811907758596680,
  18054538302070980,
  91774318941577800,
  18036948264034500,
  91774318941577800,
  18036948264034500,
  127811905611637320,
  18054538301546820,
  127811905611637320,
  18054538301546820,
  127811905613209800,
  54083335319986500,
  127811905613209800,
  54083335319986500,
  91774312501223880,
  54048153096954180,
  91774312500699720,
  18028152171012420,
  91765522849079880,
  18036948262986180,
  91765522849079880,
  18036948262986180,
  91765518555161160,
  18028152170488260,
  91765518555685320,
  54048153096430020,
  91765522850652360,
  54065745281425860,
  91765522850652360,
  54065745281425860,
  127811914201571400,
  90112132339474500,
  127811914201571400,
  90112132339474500,
  127811907760693320,
  54083335321034820,
  127811907760693320,
  54083335321034820,
  91774318943674440,
  54065745282998340,
  91774318943674440,
  54065745282998340,
  127811914201047240,
  90112132338950340,
  127811914201047240,
  90112132338950340,
  127811907758596680,
  18054538302070980,
  127811907758596680,
  18054538302070980,
  91774318941577800,
  18036948264034500,
  91774318941577800,
  18036948264034500,
  127811905611637320,
  18054538301546820,
  127811905611637320,
  18054538301546820,
  127811905613209800,
  54083335319986500,
  127811905613209800,
  54083335319986500,
  91774312501223880,
  54048153096954180,
  91774312500699720,
  18028152171012420,
  91765522849079880,
  18036948262986180,
  91765522849079880,
  18036948262986180,
  91765518555161160,
  18028152170488260,
  91765518555685320,
  54048153096430020,
  91765522850652360,
  54065745281425860,
  91765522850652360,
  54065745281425860,
  127811914201595970,
  90675082292887620,
  127811914201595970,
  90675082292887620,
  127811907760717890,
  54646285274447940,
  127811907760717890,
  54646285274447940,
  91774318943699010,
  54628695236411460,
  91774318943699010,
  54628695236411460,
  127811914201071810,
  90675082292363460,
  127811914201071810,
  90675082292363460,
  127811907758621250,
  18617488255484100,
  127811907758621250,
  18617488255484100,
  91774318941602370,
  18599898217447620,
  91774318941602370,
  18599898217447620,
  127811905611661890,
  18617488254959940,
  127811905611661890,
  18617488254959940,
  127811905613234370,
  54646285273399620,
  127811905613234370,
  54646285273399620,
  91774312501248450,
  54611103050367300,
  91774312500724290,
  18591102124425540,
  91765522849104450,
  18599898216399300,
  91765522849104450,
  18599898216399300,
  91765518555185730,
  18591102123901380,
  91765518555709890,
  54611103049843140,
  91765522850676930,
  54628695234838980,
  91765522850676930,
  54628695234838980,
  127811914201595970,
  90675082292887620,
  127811914201595970,
  90675082292887620,
  127811907760717890,
  54646285274447940,
  127811907760717890,
  54646285274447940,
  91774318943699010,
  54628695236411460,
  91774318943699010,
  54628695236411460,
  127811914201071810,
  90675082292363460,
  127811914201071810,
  90675082292363460,
  127811907758621250,
  18617488255484100,
  127811907758621250,
  18617488255484100,
  91774318941602370,
  18599898217447620,
  91774318941602370,
  18599898217447620,
  127811905611661890,
  18617488254959940,
  127811905611661890,
  18617488254959940,
  127811905613234370,
  54646285273399620,
  127811905613234370,
  54646285273399620,
  91774312501248450,
  54611103050367300,
  91774312500724290,
  18591102124425540,
  91765522849104450,
  18599898216399300,
  91765522849104450,
  18599898216399300,
  91765518555185730,
  18591102123901380,
  91765518555709890,
  54611103049843140,
  91765522850676930,
  54628695234838980,
  91765522850676930,
  54628695234838980,
  127248826809213000,
  90111720056184900,
  127248826809213000,
  90111720056184900,
  127248820368343110,
  54645735552213060,
  127248820368343110,
  54645735552213060,
  91211231551316040,
  54065332999708740,
  91211231551316040,
  54065332999708740,
  127248826808688840,
  90111720055660740,
  127248826808688840,
  90111720055660740,
  127248820366246470,
  18616938533249220,
  127248820366246470,
  18616938533249220,
  91211231549219400,
  18036535980744900,
  91211231549219400,
  18036535980744900,
  127248818219278920,
  18054126018257220,
  127248818219278920,
  18054126018257220,
  127248818220851400,
  54082923036696900,
  127248818220851400,
  54082923036696900,
  91211225108873670,
  54610553328132420,
  91211225108349510,
  18590552402190660,
  91202435456721480,
  18036535979696580,
  91202435456721480,
  18036535979696580,
  91202431162810950,
  18590552401666500,
  91202431163335110,
  54610553327608260,
  91202435458293960,
  54065332998136260,
  91202435458293960,
  54065332998136260,
  127248826809213000,
  90111720056184900,
  127248826809213000,
  90111720056184900,
  127248820368343110,
  54645735552213060,
  127248820368343110,
  54645735552213060,
  91211231551316040,
  54065332999708740,
  91211231551316040,
  54065332999708740,
  127248826808688840,
  90111720055660740,
  127248826808688840,
  90111720055660740,
  127248820366246470,
  18616938533249220,
  127248820366246470,
  18616938533249220,
  91211231549219400,
  18036535980744900,
  91211231549219400,
  18036535980744900,
  127248818219278920,
  18054126018257220,
  127248818219278920,
  18054126018257220,
  127248818220851400,
  54082923036696900,
  127248818220851400,
  54082923036696900]
def residQf1_mat_cert_5 : List Nat := [91211225108873670,
  54610553328132420,
  91211225108349510,
  18590552402190660,
  91202435456721480,
  18036535979696580,
  91202435456721480,
  18036535979696580,
  91202431162810950,
  18590552401666500,
  91202431163335110,
  54610553327608260,
  91202435458293960,
  54065332998136260,
  91202435458293960,
  54065332998136260,
  127248689470906440,
  90111857495121990,
  127248689470906440,
  90111857495121990,
  127248683063582790,
  55208685505617990,
  127248683063582790,
  55208685505617990,
  91211094213009480,
  54065470438645830,
  91211094213009480,
  54065470438645830,
  127248689470382280,
  90111857494597830,
  127248689470382280,
  90111857494597830,
  127248683061486150,
  19179888486654150,
  127248683061486150,
  19179888486654150,
  91211094210912840,
  18036673419681990,
  91211094210912840,
  18036673419681990,
  127248680880972360,
  18054263457194310,
  127248680880972360,
  18054263457194310,
  127248680882544840,
  54083060475633990,
  127248680882544840,
  54083060475633990,
  91211087804113350,
  55173503281537350,
  91211087803589190,
  19153502355595590,
  91202298118414920,
  18036673418633670,
  91202298118414920,
  18036673418633670,
  91202293858050630,
  19153502355071430,
  91202293858574790,
  55173503281013190,
  91202298119987400,
  54065470437073350,
  91202298119987400,
  54065470437073350,
  127248689470906440,
  90111857495121990,
  127248689470906440,
  90111857495121990,
  127248683063582790,
  55208685505617990,
  127248683063582790,
  55208685505617990,
  91211094213009480,
  54065470438645830,
  91211094213009480,
  54065470438645830,
  127248689470382280,
  90111857494597830,
  127248689470382280,
  90111857494597830,
  127248683061486150,
  19179888486654150,
  127248683061486150,
  19179888486654150,
  91211094210912840,
  18036673419681990,
  91211094210912840,
  18036673419681990,
  127248680880972360,
  18054263457194310,
  127248680880972360,
  18054263457194310,
  127248680882544840,
  54083060475633990,
  127248680882544840,
  54083060475633990,
  91211087804113350,
  55173503281537350,
  91211087803589190,
  19153502355595590,
  91202298118414920,
  18036673418633670,
  91202298118414920,
  18036673418633670,
  91202293858050630,
  19153502355071430,
  91202293858574790,
  55173503281013190,
  91202298119987400,
  54065470437073350,
  91202298119987400,
  54065470437073350,
  127248689403813960,
  90111720056176710,
  127248689403813960,
  90111720056176710,
  127248682962944070,
  54645735552204870,
  127248682962944070,
  54645735552204870,
  91211094145917000,
  54065332999700550,
  91211094145917000,
  54065332999700550,
  127248689403289800,
  90111720055652550,
  127248689403289800,
  90111720055652550,
  127248682960847430,
  18616938533241030,
  127248682960847430,
  18616938533241030,
  91211094143820360,
  18036535980736710,
  91211094143820360,
  18036535980736710,
  127248680813879880,
  18054126018249030,
  127248680813879880,
  18054126018249030,
  127248680815452360,
  54082923036688710,
  127248680815452360,
  54082923036688710,
  91211087703474630,
  54610553328124230,
  91211087702950470,
  18590552402182470,
  91202298051322440,
  18036535979688390,
  91202298051322440,
  18036535979688390,
  91202293757411910,
  18590552401658310,
  91202293757936070,
  54610553327600070,
  91202298052894920,
  54065332998128070,
  91202298052894920,
  54065332998128070,
  127248689403813960,
  90111720056176710,
  127248689403813960,
  90111720056176710,
  127248682962944070,
  54645735552204870,
  127248682962944070,
  54645735552204870,
  91211094145917000,
  54065332999700550,
  91211094145917000,
  54065332999700550,
  127248689403289800,
  90111720055652550,
  127248689403289800,
  90111720055652550,
  127248682960847430,
  18616938533241030,
  127248682960847430,
  18616938533241030,
  91211094143820360,
  18036535980736710,
  91211094143820360,
  18036535980736710,
  127248680813879880,
  18054126018249030,
  127248680813879880,
  18054126018249030,
  127248680815452360,
  54082923036688710,
  127248680815452360,
  54082923036688710,
  91211087703474630,
  54610553328124230,
  91211087702950470,
  18590552402182470,
  91202298051322440,
  18036535979688390,
  91202298051322440,
  18036535979688390,
  91202293757411910,
  18590552401658310,
  91202293757936070,
  54610553327600070,
  91202298052894920,
  54065332998128070,
  91202298052894920,
  54065332998128070,
  127248689470931010,
  90674807448535110,
  127248689470931010,
  90674807448535110,
  127248683030052930,
  54646010430095430,
  127248683030052930,
  54646010430095430,
  91211094213034050,
  54628420392058950,
  91211094213034050,
  54628420392058950,
  127248689470406850,
  90674807448010950,
  127248689470406850,
  90674807448010950,
  127248683027956290,
  18617213411131590,
  127248683027956290,
  18617213411131590,
  91211094210937410,
  18599623373095110,
  91211094210937410,
  18599623373095110,
  127248680880996930,
  18617213410607430,
  127248680880996930,
  18617213410607430,
  127248680882569410,
  54646010429047110,
  127248680882569410,
  54646010429047110,
  91211087770583490,
  54610828206014790,
  91211087770059330,
  18590827280073030,
  91202298118439490,
  18599623372046790,
  91202298118439490,
  18599623372046790,
  91202293824520770,
  18590827279548870,
  91202293825044930,
  54610828205490630,
  91202298120011970,
  54628420390486470,
  91202298120011970,
  54628420390486470,
  127248689504477250,
  91237619963002950,
  127248689504477250,
  91237619963002950,
  127248683063599170,
  55208822944563270,
  127248683063599170,
  55208822944563270,
  91211094246580290,
  55191232906526790,
  91211094246580290,
  55191232906526790,
  127248689503953090,
  91237619962478790,
  127248689503953090,
  91237619962478790,
  127248683061502530,
  19180025925599430,
  127248683061502530,
  19180025925599430,
  91211094244483650,
  19162435887562950,
  91211094244483650,
  19162435887562950,
  127248680914543170,
  19180025925075270,
  127248680914543170,
  19180025925075270,
  127248680916115650,
  55208822943514950,
  127248680916115650,
  55208822943514950,
  91211087804129730,
  55173640720482630,
  91211087803605570,
  19153639794540870,
  91202298151985730,
  19162435886514630,
  91202298151985730,
  19162435886514630,
  91202293858067010,
  19153639794016710,
  91202293858591170,
  55173640719958470,
  91202298153558210,
  55191232904954310,
  91202298153558210,
  55191232904954310,
  811818900033884659776,
  811818900033884659776,
  811818891239939121216,
  811818891239939121216,
  516670986056293425216,
  221523107269513060416,
  516670986056293425216,
  221523107269513060416,
  516670977262347886656,
  221523107267366101056,
  516670977262347886656,
  221523107267366101056,
  664280976241226686656,
  664280976241226686656,
  664280967447281148096,
  664280967447281148096,
  664208909848948253376,
  73985174680762589376,
  664208909848948253376,
  73985174680762589376,
  664208901055002714816,
  73985174678615630016,
  664208901055002714816,
  73985174678615630016,
  664208909846801294016,
  73985174680762065216,
  664208909846801294016,
  73985174680762065216,
  516670986054145941696,
  221523107269512012096,
  516670986054145941696,
  221523107269512012096,
  369060995871357018816,
  73841059496982225216,
  369060995871357018816,
  73841059496982225216,
  664208892258910216896,
  73985174678614581696,
  664208892258910216896,
  73985174678614581696,
  369060987077411480256,
  73841059496981701056,
  369060987077411480256,
  73841059496981701056,
  516670968466254864576,
  221523107267364528576,
  516670968466254864576,
  221523107267364528576,
  811818899896479260736,
  811818899896479260736,
  811818891102533722176,
  811818891102533722176,
  516670985918888026176,
  221523107132107661376,
  516670985918888026176,
  221523107132107661376,
  516670977124942487616,
  221523107129960702016,
  516670977124942487616,
  221523107129960702016,
  664280976103821287616,
  664280976103821287616,
  664280967309875749056,
  664280967309875749056,
  664208909711542854336,
  73985174543357190336,
  664208909711542854336,
  73985174543357190336,
  664208900917597315776,
  73985174541210230976,
  664208900917597315776,
  73985174541210230976,
  664208909709395894976,
  73985174543356666176,
  664208909709395894976,
  73985174543356666176,
  516670985916740542656,
  221523107132106613056,
  516670985916740542656,
  221523107132106613056,
  369060995733951619776,
  73841059359576826176,
  369060995733951619776,
  73841059359576826176,
  664208892121504817856,
  73985174541209182656,
  664208892121504817856,
  73985174541209182656,
  369060986940006081216,
  73841059359576302016,
  369060986940006081216,
  73841059359576302016,
  516670968328849465536,
  221523107129959129536,
  516670968328849465536,
  221523107129959129536]
def residQf1_mat_cert_6 : List Nat := [811818900033851113536,
  811818900033851113536,
  811818891239905574976,
  811818891239905574976,
  516670985918820933696,
  221523106994668716096,
  516670985918820933696,
  221523106994668716096,
  516670977124875395136,
  221523106992521756736,
  516670977124875395136,
  221523106992521756736,
  664280976103754195136,
  664280975966382342336,
  664280967309808656576,
  664280967172436803776,
  664208909848914707136,
  73985174680729043136,
  664208909848914707136,
  73985174680729043136,
  664208901054969168576,
  73985174678582083776,
  664208901054969168576,
  73985174678582083776,
  664208909846767747776,
  73985174680728518976,
  664208909846767747776,
  73985174680728518976,
  516670985916673450176,
  221523106994667667776,
  516670985916673450176,
  221523106994667667776,
  516598919663981445696,
  221378992083551666496,
  516598919663981445696,
  221378992083551666496,
  664208892258876670656,
  73985174678581035456,
  664208892258876670656,
  73985174678581035456,
  516598910870035907136,
  221378992083551142336,
  516598910870035907136,
  221378992083551142336,
  516670968328782373056,
  221523106992520184256,
  516670968328782373056,
  221523106992520184256,
  811818900033851113536,
  811818900033851113536,
  811818891239905574976,
  811818891239905574976,
  516670985918820933696,
  221523106994668716096,
  516670985918820933696,
  221523106994668716096,
  516670977124875395136,
  221523106992521756736,
  516670977124875395136,
  221523106992521756736,
  664280976103754195136,
  664280975966382342336,
  664280967309808656576,
  664280967172436803776,
  664208909848914707136,
  73985174680729043136,
  664208909848914707136,
  73985174680729043136,
  664208901054969168576,
  73985174678582083776,
  664208901054969168576,
  73985174678582083776,
  664208909846767747776,
  73985174680728518976,
  664208909846767747776,
  73985174680728518976,
  516670985916673450176,
  221523106994667667776,
  516670985916673450176,
  221523106994667667776,
  516598919663981445696,
  221378992083551666496,
  516598919663981445696,
  221378992083551666496,
  664208892258876670656,
  73985174678581035456,
  664208892258876670656,
  73985174678581035456,
  516598910870035907136,
  221378992083551142336,
  516598910870035907136,
  221378992083551142336,
  516670968328782373056,
  221523106992520184256,
  516670968328782373056,
  221523106992520184256,
  811818899759040315456,
  811818899896412168256,
  811818890965094776896,
  811818891102466629696,
  516670985781415534656,
  221523106994635169856,
  516670985781415534656,
  221523106994635169856,
  516670976987469996096,
  221523106992488210496,
  516670976987469996096,
  221523106992488210496,
  664280975966348796096,
  664280975966348796096,
  664280967172403257536,
  664280967172403257536,
  664208909574103909056,
  73985174543290097856,
  664208909574103909056,
  73985174543290097856,
  664208900780158370496,
  73985174541143138496,
  664208900780158370496,
  73985174541143138496,
  664208909571956949696,
  73985174543289573696,
  664208909571956949696,
  73985174543289573696,
  516670985779268051136,
  221523106994634121536,
  516670985779268051136,
  221523106994634121536,
  516598919389170647616,
  221378991946112721216,
  516598919389170647616,
  221378991946112721216,
  664208891984065872576,
  73985174541142090176,
  664208891984065872576,
  73985174541142090176,
  516598910595225109056,
  221378991946112197056,
  516598910595225109056,
  221378991946112197056,
  516670968191376974016,
  221523106992486638016,
  516670968191376974016,
  221523106992486638016,
  811818899759040315456,
  811818899896412168256,
  811818890965094776896,
  811818891102466629696,
  516670985781415534656,
  221523106994635169856,
  516670985781415534656,
  221523106994635169856,
  516670976987469996096,
  221523106992488210496,
  516670976987469996096,
  221523106992488210496,
  664280975966348796096,
  664280975966348796096,
  664280967172403257536,
  664280967172403257536,
  664208909574103909056,
  73985174543290097856,
  664208909574103909056,
  73985174543290097856,
  664208900780158370496,
  73985174541143138496,
  664208900780158370496,
  73985174541143138496,
  664208909571956949696,
  73985174543289573696,
  664208909571956949696,
  73985174543289573696,
  516670985779268051136,
  221523106994634121536,
  516670985779268051136,
  221523106994634121536,
  516598919389170647616,
  221378991946112721216,
  516598919389170647616,
  221378991946112721216,
  664208891984065872576,
  73985174541142090176,
  664208891984065872576,
  73985174541142090176,
  516598910595225109056,
  221378991946112197056,
  516598910595225109056,
  221378991946112197056,
  516670968191376974016,
  221523106992486638016,
  516670968191376974016,
  221523106992486638016,
  811818900033884651586,
  811818900033884651586,
  811818891239939113026,
  811818891239939113026,
  516670986056293417026,
  221523107269513052226,
  516670986056293417026,
  221523107269513052226,
  516670977262347878466,
  221523107267366092866,
  516670977262347878466,
  221523107267366092866,
  664280976241226678466,
  664280976241226678466,
  664280967447281139906,
  664280967447281139906,
  664208909848948245186,
  73985174680762581186,
  664208909848948245186,
  73985174680762581186,
  664208901055002706626,
  73985174678615621826,
  664208901055002706626,
  73985174678615621826,
  664208909846801285826,
  73985174680762057026,
  664208909846801285826,
  73985174680762057026,
  516670986054145933506,
  221523107269512003906,
  516670986054145933506,
  221523107269512003906,
  369060995871357010626,
  73841059496982217026,
  369060995871357010626,
  73841059496982217026,
  664208892258910208706,
  73985174678614573506,
  664208892258910208706,
  73985174678614573506,
  369060987077411472066,
  73841059496981692866,
  369060987077411472066,
  73841059496981692866,
  516670968466254856386,
  221523107267364520386,
  516670968466254856386,
  221523107267364520386,
  811818899896479252546,
  811818899896479252546,
  811818891102533713986,
  811818891102533713986,
  516670985918888017986,
  221523107132107653186,
  516670985918888017986,
  221523107132107653186,
  516670977124942479426,
  221523107129960693826,
  516670977124942479426,
  221523107129960693826,
  664280976103821279426,
  664280976103821279426,
  664280967309875740866,
  664280967309875740866,
  664208909711542846146,
  73985174543357182146,
  664208909711542846146,
  73985174543357182146,
  664208900917597307586,
  73985174541210222786,
  664208900917597307586,
  73985174541210222786,
  664208909709395886786,
  73985174543356657986,
  664208909709395886786,
  73985174543356657986,
  516670985916740534466,
  221523107132106604866,
  516670985916740534466,
  221523107132106604866,
  369060995733951611586,
  73841059359576817986,
  369060995733951611586,
  73841059359576817986,
  664208892121504809666,
  73985174541209174466,
  664208892121504809666,
  73985174541209174466,
  369060986940006073026,
  73841059359576293826,
  369060986940006073026,
  73841059359576293826,
  516670968328849457346,
  221523107129959121346,
  516670968328849457346,
  221523107129959121346,
  811818900033851097156,
  811818900033817559106,
  811818891239905558596,
  811818891239872020546,
  516670985918820909126,
  221523106857229762626,
  516670985918820909126,
  221523106857229762626,
  516670977124875370566,
  221523106855082803266,
  516670977124875370566,
  221523106855082803266,
  664280976103754170566,
  664280975828943388866,
  664280967309808632006,
  664280967034997850306,
  664208909848914690756,
  73985174680695488706,
  664208909848914690756,
  73985174680695488706,
  664208901054969152196,
  73985174678548529346,
  664208901054969152196,
  73985174678548529346,
  664208909846767731396,
  73985174680694964546,
  664208909846767731396,
  73985174680694964546,
  516670985916673425606,
  221523106857228714306,
  516670985916673425606,
  221523106857228714306,
  516598919663981429316,
  221378992083518112066,
  516598919663981429316,
  221378992083518112066,
  664208892258876654276,
  73985174678547481026,
  664208892258876654276,
  73985174678547481026,
  516598910870035890756,
  221378992083517587906,
  516598910870035890756,
  221378992083517587906,
  516670968328782348486,
  221523106855081230786,
  516670968328782348486,
  221523106855081230786,
  811818900033851097156,
  811818900033817559106,
  811818891239905558596,
  811818891239872020546,
  516670985918820909126,
  221523106857229762626,
  516670985918820909126,
  221523106857229762626,
  516670977124875370566,
  221523106855082803266,
  516670977124875370566,
  221523106855082803266,
  664280976103754170566,
  664280975828943388866,
  664280967309808632006,
  664280967034997850306,
  664208909848914690756,
  73985174680695488706,
  664208909848914690756,
  73985174680695488706,
  664208901054969152196,
  73985174678548529346,
  664208901054969152196,
  73985174678548529346,
  664208909846767731396,
  73985174680694964546,
  664208909846767731396,
  73985174680694964546,
  516670985916673425606,
  221523106857228714306,
  516670985916673425606,
  221523106857228714306,
  516598919663981429316,
  221378992083518112066,
  516598919663981429316,
  221378992083518112066,
  664208892258876654276,
  73985174678547481026,
  664208892258876654276,
  73985174678547481026,
  516598910870035890756,
  221378992083517587906,
  516598910870035890756,
  221378992083517587906,
  516670968328782348486,
  221523106855081230786,
  516670968328782348486,
  221523106855081230786,
  811818899759040299076,
  811818899896378613826,
  811818890965094760516,
  811818891102433075266,
  516670985781415510086,
  221523106857196216386,
  516670985781415510086,
  221523106857196216386,
  516670976987469971526,
  221523106855049257026,
  516670976987469971526,
  221523106855049257026,
  664280975966348771526,
  664280975828909842626,
  664280967172403232966,
  664280967034964304066]
def residQf1_mat_cert_7 : List Nat := [664208909574103892676,
  73985174543256543426,
  664208909574103892676,
  73985174543256543426,
  664208900780158354116,
  73985174541109584066,
  664208900780158354116,
  73985174541109584066,
  664208909571956933316,
  73985174543256019266,
  664208909571956933316,
  73985174543256019266,
  516670985779268026566,
  221523106857195168066,
  516670985779268026566,
  221523106857195168066,
  516598919389170631236,
  221378991946079166786,
  516598919389170631236,
  221378991946079166786,
  664208891984065856196,
  73985174541108535746,
  664208891984065856196,
  73985174541108535746,
  516598910595225092676,
  221378991946078642626,
  516598910595225092676,
  221378991946078642626,
  516670968191376949446,
  221523106855047684546,
  516670968191376949446,
  221523106855047684546,
  811818899759040299076,
  811818899896378613826,
  811818890965094760516,
  811818891102433075266,
  516670985781415510086,
  221523106857196216386,
  516670985781415510086,
  221523106857196216386,
  516670976987469971526,
  221523106855049257026,
  516670976987469971526,
  221523106855049257026,
  664280975966348771526,
  664280975828909842626,
  664280967172403232966,
  664280967034964304066,
  664208909574103892676,
  73985174543256543426,
  664208909574103892676,
  73985174543256543426,
  664208900780158354116,
  73985174541109584066,
  664208900780158354116,
  73985174541109584066,
  664208909571956933316,
  73985174543256019266,
  664208909571956933316,
  73985174543256019266,
  516670985779268026566,
  221523106857195168066,
  516670985779268026566,
  221523106857195168066,
  516598919389170631236,
  221378991946079166786,
  516598919389170631236,
  221378991946079166786,
  664208891984065856196,
  73985174541108535746,
  664208891984065856196,
  73985174541108535746,
  516598910595225092676,
  221378991946078642626,
  516598910595225092676,
  221378991946078642626,
  516670968191376949446,
  221523106855047684546,
  516670968191376949446,
  221523106855047684546,
  811818900033817550916,
  811818900033817550916,
  811818891239872012356,
  811818891239872012356,
  516670985918787362886,
  221523106857229754436,
  516670985918787362886,
  221523106857229754436,
  516670977124841824326,
  221523106855082795076,
  516670977124841824326,
  221523106855082795076,
  664280976103720624326,
  664280975828943380676,
  664280967309775085766,
  664280967034997842116,
  664208909848881144516,
  73985174680695480516,
  664208909848881144516,
  73985174680695480516,
  664208901054935605956,
  73985174678548521156,
  664208901054935605956,
  73985174678548521156,
  664208909846734185156,
  73985174680694956356,
  664208909846734185156,
  73985174680694956356,
  516670985916639879366,
  221523106857228706116,
  516670985916639879366,
  221523106857228706116,
  369060995733850956486,
  73841059084698919236,
  369060995733850956486,
  73841059084698919236,
  664208892258843108036,
  73985174678547472836,
  664208892258843108036,
  73985174678547472836,
  369060986939905417926,
  73841059084698395076,
  369060986939905417926,
  73841059084698395076,
  516670968328748802246,
  221523106855081222596,
  516670968328748802246,
  221523106855081222596,
  811818900033817550916,
  811818900033817550916,
  811818891239872012356,
  811818891239872012356,
  516670985918787362886,
  221523106857229754436,
  516670985918787362886,
  221523106857229754436,
  516670977124841824326,
  221523106855082795076,
  516670977124841824326,
  221523106855082795076,
  664280976103720624326,
  664280975828943380676,
  664280967309775085766,
  664280967034997842116,
  664208909848881144516,
  73985174680695480516,
  664208909848881144516,
  73985174680695480516,
  664208901054935605956,
  73985174678548521156,
  664208901054935605956,
  73985174678548521156,
  664208909846734185156,
  73985174680694956356,
  664208909846734185156,
  73985174680694956356,
  516670985916639879366,
  221523106857228706116,
  516670985916639879366,
  221523106857228706116,
  369060995733850956486,
  73841059084698919236,
  369060995733850956486,
  73841059084698919236,
  664208892258843108036,
  73985174678547472836,
  664208892258843108036,
  73985174678547472836,
  369060986939905417926,
  73841059084698395076,
  369060986939905417926,
  73841059084698395076,
  516670968328748802246,
  221523106855081222596,
  516670968328748802246,
  221523106855081222596,
  811818900033817559106,
  811818900033851097156,
  811818891239872020546,
  811818891239905558596,
  516670985918787379266,
  221523106994668699716,
  516670985918787379266,
  221523106994668699716,
  516670977124841840706,
  221523106992521740356,
  516670977124841840706,
  221523106992521740356,
  664280976103720640706,
  664280975966382325956,
  664280967309775102146,
  664280967172436787396,
  664208909848881152706,
  73985174680729026756,
  664208909848881152706,
  73985174680729026756,
  664208901054935614146,
  73985174678582067396,
  664208901054935614146,
  73985174678582067396,
  664208909846734193346,
  73985174680728502596,
  664208909846734193346,
  73985174680728502596,
  516670985916639895746,
  221523106994667651396,
  516670985916639895746,
  221523106994667651396,
  369060995733850972866,
  73841059222137864516,
  369060995733850972866,
  73841059222137864516,
  664208892258843116226,
  73985174678581019076,
  664208892258843116226,
  73985174678581019076,
  369060986939905434306,
  73841059222137340356,
  369060986939905434306,
  73841059222137340356,
  516670968328748818626,
  221523106992520167876,
  516670968328748818626,
  221523106992520167876,
  811818900033817559106,
  811818900033851097156,
  811818891239872020546,
  811818891239905558596,
  516670985918787379266,
  221523106994668699716,
  516670985918787379266,
  221523106994668699716,
  516670977124841840706,
  221523106992521740356,
  516670977124841840706,
  221523106992521740356,
  664280976103720640706,
  664280975966382325956,
  664280967309775102146,
  664280967172436787396,
  664208909848881152706,
  73985174680729026756,
  664208909848881152706,
  73985174680729026756,
  664208901054935614146,
  73985174678582067396,
  664208901054935614146,
  73985174678582067396,
  664208909846734193346,
  73985174680728502596,
  664208909846734193346,
  73985174680728502596,
  516670985916639895746,
  221523106994667651396,
  516670985916639895746,
  221523106994667651396,
  369060995733850972866,
  73841059222137864516,
  369060995733850972866,
  73841059222137864516,
  664208892258843116226,
  73985174678581019076,
  664208892258843116226,
  73985174678581019076,
  369060986939905434306,
  73841059222137340356,
  369060986939905434306,
  73841059222137340356,
  516670968328748818626,
  221523106992520167876,
  516670968328748818626,
  221523106992520167876,
  811818899758939660356,
  811818899758939660356,
  811818890964994121796,
  811818890964994121796,
  516670985781348425796,
  221523106994568060996,
  516670985781348425796,
  221523106994568060996,
  516670976987402887236,
  221523106992421101636,
  516670976987402887236,
  221523106992421101636,
  664280975966281687236,
  664280975966281687236,
  664280967172336148676,
  664280967172336148676,
  664208909574003253956,
  73985174405817589956,
  664208909574003253956,
  73985174405817589956,
  664208900780057715396,
  73985174403670630596,
  664208900780057715396,
  73985174403670630596,
  664208909571856294596,
  73985174405817065796,
  664208909571856294596,
  73985174405817065796,
  516670985779200942276,
  221523106994567012676,
  516670985779200942276,
  221523106994567012676,
  516598919389069992516,
  221378991808640213316,
  516598919389069992516,
  221378991808640213316,
  664208891983965217476,
  73985174403669582276,
  664208891983965217476,
  73985174403669582276,
  516598910595124453956,
  221378991808639689156,
  516598910595124453956,
  221378991808639689156,
  516670968191309865156,
  221523106992419529156,
  516670968191309865156,
  221523106992419529156,
  811818899758939652166,
  811818899621534261316,
  811818890964994113606,
  811818890827588722756,
  516670985781348417606,
  221523106857162661956,
  516670985781348417606,
  221523106857162661956,
  516670976987402879046,
  221523106855015702596,
  516670976987402879046,
  221523106855015702596,
  664280975966281679046,
  664280975828876288196,
  664280967172336140486,
  664280967034930749636,
  664208909574003245766,
  73985174268412190916,
  664208909574003245766,
  73985174268412190916,
  664208900780057707206,
  73985174266265231556,
  664208900780057707206,
  73985174266265231556,
  664208909571856286406,
  73985174268411666756,
  664208909571856286406,
  73985174268411666756,
  516670985779200934086,
  221523106857161613636,
  516670985779200934086,
  221523106857161613636,
  516598919389069984326,
  221378991671234814276,
  516598919389069984326,
  221378991671234814276,
  664208891983965209286,
  73985174266264183236,
  664208891983965209286,
  73985174266264183236,
  516598910595124445766,
  221378991671234290116,
  516598910595124445766,
  221378991671234290116,
  516670968191309856966,
  221523106855014130116,
  516670968191309856966,
  221523106855014130116,
  811818899621601353796,
  811818899896378597446,
  811818890827655815236,
  811818891102433058886,
  516670985643976564806,
  221523106857196200006,
  516670985643976564806,
  221523106857196200006,
  516670976850031026246,
  221523106855049240646,
  516670976850031026246,
  221523106855049240646,
  664280975828909826246,
  664280975828909826246,
  664280967034964287686,
  664280967034964287686,
  664208909436664947396,
  73985174543256527046,
  664208909436664947396,
  73985174543256527046,
  664208900642719408836,
  73985174541109567686,
  664208900642719408836,
  73985174541109567686,
  664208909434517988036,
  73985174543256002886,
  664208909434517988036,
  73985174543256002886,
  516670985641829081286,
  221523106857195151686,
  516670985641829081286,
  221523106857195151686]
def residQf1_mat_cert_8 : List Nat := [369060995459040158406,
  73841059084665364806,
  369060995459040158406,
  73841059084665364806,
  664208891846626910916,
  73985174541108519366,
  664208891846626910916,
  73985174541108519366,
  369060986665094619846,
  73841059084664840646,
  369060986665094619846,
  73841059084664840646,
  516670968053938004166,
  221523106855047668166,
  516670968053938004166,
  221523106855047668166,
  811818899621601353796,
  811818899896378597446,
  811818890827655815236,
  811818891102433058886,
  516670985643976564806,
  221523106857196200006,
  516670985643976564806,
  221523106857196200006,
  516670976850031026246,
  221523106855049240646,
  516670976850031026246,
  221523106855049240646,
  664280975828909826246,
  664280975828909826246,
  664280967034964287686,
  664280967034964287686,
  664208909436664947396,
  73985174543256527046,
  664208909436664947396,
  73985174543256527046,
  664208900642719408836,
  73985174541109567686,
  664208900642719408836,
  73985174541109567686,
  664208909434517988036,
  73985174543256002886,
  664208909434517988036,
  73985174543256002886,
  516670985641829081286,
  221523106857195151686,
  516670985641829081286,
  221523106857195151686,
  369060995459040158406,
  73841059084665364806,
  369060995459040158406,
  73841059084665364806,
  664208891846626910916,
  73985174541108519366,
  664208891846626910916,
  73985174541108519366,
  369060986665094619846,
  73841059084664840646,
  369060986665094619846,
  73841059084664840646,
  516670968053938004166,
  221523106855047668166,
  516670968053938004166,
  221523106855047668166,
  811818899621534253126,
  811818899621534253126,
  811818890827588714566,
  811818890827588714566,
  516670985643943018566,
  221523106857162653766,
  516670985643943018566,
  221523106857162653766,
  516670976849997480006,
  221523106855015694406,
  516670976849997480006,
  221523106855015694406,
  664280975828876280006,
  664280975828876280006,
  664280967034930741446,
  664280967034930741446,
  664208909436597846726,
  73985174268412182726,
  664208909436597846726,
  73985174268412182726,
  664208900642652308166,
  73985174266265223366,
  664208900642652308166,
  73985174266265223366,
  664208909434450887366,
  73985174268411658566,
  664208909434450887366,
  73985174268411658566,
  516670985641795535046,
  221523106857161605446,
  516670985641795535046,
  221523106857161605446,
  516598919251664585286,
  221378991671234806086,
  516598919251664585286,
  221378991671234806086,
  664208891846559810246,
  73985174266264175046,
  664208891846559810246,
  73985174266264175046,
  516598910457719046726,
  221378991671234281926,
  516598910457719046726,
  221378991671234281926,
  516670968053904457926,
  221523106855014121926,
  516670968053904457926,
  221523106855014121926,
  811818899621534261316,
  811818899758939652166,
  811818890827588722756,
  811818890964994113606,
  516670985643943026756,
  221523106994568052806,
  516670985643943026756,
  221523106994568052806,
  516670976849997488196,
  221523106992421093446,
  516670976849997488196,
  221523106992421093446,
  664280975828876288196,
  664280975966281679046,
  664280967034930749636,
  664280967172336140486,
  664208909436597854916,
  73985174405817581766,
  664208909436597854916,
  73985174405817581766,
  664208900642652316356,
  73985174403670622406,
  664208900642652316356,
  73985174403670622406,
  664208909434450895556,
  73985174405817057606,
  664208909434450895556,
  73985174405817057606,
  516670985641795543236,
  221523106994567004486,
  516670985641795543236,
  221523106994567004486,
  516598919251664593476,
  221378991808640205126,
  516598919251664593476,
  221378991808640205126,
  664208891846559818436,
  73985174403669574086,
  664208891846559818436,
  73985174403669574086,
  516598910457719054916,
  221378991808639680966,
  516598910457719054916,
  221378991808639680966,
  516670968053904466116,
  221523106992419520966,
  516670968053904466116,
  221523106992419520966,
  811818899621601361986,
  811818899896412143686,
  811818890827655823426,
  811818891102466605126,
  516670985643976581186,
  221523106994635145286,
  516670985643976581186,
  221523106994635145286,
  516670976850031042626,
  221523106992488185926,
  516670976850031042626,
  221523106992488185926,
  664280975828909842626,
  664280975966348771526,
  664280967034964304066,
  664280967172403232966,
  664208909436664955586,
  73985174543290073286,
  664208909436664955586,
  73985174543290073286,
  664208900642719417026,
  73985174541143113926,
  664208900642719417026,
  73985174541143113926,
  664208909434517996226,
  73985174543289549126,
  664208909434517996226,
  73985174543289549126,
  516670985641829097666,
  221523106994634096966,
  516670985641829097666,
  221523106994634096966,
  369060995459040174786,
  73841059222104310086,
  369060995459040174786,
  73841059222104310086,
  664208891846626919106,
  73985174541142065606,
  664208891846626919106,
  73985174541142065606,
  369060986665094636226,
  73841059222103785926,
  369060986665094636226,
  73841059222103785926,
  516670968053938020546,
  221523106992486613446,
  516670968053938020546,
  221523106992486613446,
  811818899621601361986,
  811818899896412143686,
  811818890827655823426,
  811818891102466605126,
  516670985643976581186,
  221523106994635145286,
  516670985643976581186,
  221523106994635145286,
  516670976850031042626,
  221523106992488185926,
  516670976850031042626,
  221523106992488185926,
  664280975828909842626,
  664280975966348771526,
  664280967034964304066,
  664280967172403232966,
  664208909436664955586,
  73985174543290073286,
  664208909436664955586,
  73985174543290073286,
  664208900642719417026,
  73985174541143113926,
  664208900642719417026,
  73985174541143113926,
  664208909434517996226,
  73985174543289549126,
  664208909434517996226,
  73985174543289549126,
  516670985641829097666,
  221523106994634096966,
  516670985641829097666,
  221523106994634096966,
  369060995459040174786,
  73841059222104310086,
  369060995459040174786,
  73841059222104310086,
  664208891846626919106,
  73985174541142065606,
  664208891846626919106,
  73985174541142065606,
  369060986665094636226,
  73841059222103785926,
  369060986665094636226,
  73841059222103785926,
  516670968053938020546,
  221523106992486613446,
  516670968053938020546,
  221523106992486613446,
  11531489256015667264,
  11531489256015667264,
  11531489256015659074,
  11531489256015659074,
  11531489256015667264,
  11531489256015667264,
  11531489256015659074,
  11531489256015659074,
  9225083159510261824,
  4614523315800514624,
  9225083159510253634,
  4614523315800506434,
  9225083159510261824,
  4614523315800514624,
  9225083159510253634,
  4614523315800506434,
  9225083159510261824,
  4614523315800514624,
  9225083159510253634,
  4614523315800506434,
  9225083159510261824,
  4614523315800514624,
  9225083159510253634,
  4614523315800506434,
  6918677475221053504,
  4613397553366179904,
  6918677475221053504,
  4613397553366179904,
  4613406347311194304,
  6918686269166067904,
  127811914335789120,
  91238032246317120,
  127811914335780930,
  91238032246308930,
  127811914335789120,
  91238032246317120,
  127811914335789120,
  91238032246317120,
  127811914335780930,
  91238032246308930,
  127811914335264960,
  91238032245792960,
  127811914335256770,
  91238032245784770,
  127811914335789120,
  91238032246317120,
  127811914335264960,
  91238032245792960,
  127249239226720320,
  91800707355385920,
  127249239226712130,
  91800707355377730,
  127249101821321280,
  91237894840918080,
  127249101821313090,
  91237894840909890,
  127249239226720320,
  91800707355385920,
  127249239226712130,
  91800707355377730,
  127249239226196160,
  91800707354861760,
  127249239226187970,
  91800707354853570,
  127249101821321280,
  91237894840918080,
  127249101821313090,
  91237894840909890,
  127249239226196160,
  91800707354861760,
  127249239226187970,
  91800707354853570,
  91791913409847360,
  91229238300778560,
  91791913409839170,
  91229238300770370,
  91791913409323200,
  91229238300254400,
  91791913409315010,
  91229238300246210,
  91791913409847360,
  91229238300778560,
  91791913409323200,
  91229238300254400,
  91791913409847360,
  91229238300778560,
  91791913409839170,
  91229238300770370,
  91791913409323200,
  91229238300254400,
  91791913409315010,
  91229238300246210,
  91791913409847360,
  91229238300778560,
  91791913409323200,
  91229238300254400,
  91229238300778560,
  91791913409847360,
  91229238300770370,
  91791913409839170,
  91229238300254400,
  91791913409323200,
  91229238300246210,
  91791913409315010,
  91229100895379520,
  91229100895379520,
  91229100895371330,
  91229100895371330,
  91229100894855360,
  91229100894855360,
  91229100894847170,
  91229100894847170,
  91229238300778560,
  91791913409847360,
  91229238300770370,
  91791913409839170,
  91229238300254400,
  91791913409323200,
  91229238300246210,
  91791913409315010,
  91229238300778560,
  91791913409847360,
  91229238300770370,
  91791913409839170,
  91229238300254400,
  91791913409323200,
  91229238300246210,
  91791913409315010,
  811818891239939121216,
  811818891239939121216,
  811818891102533722176,
  811818891102533722176,
  811818891102533713986,
  811818891102533713986,
  811818891239939121216,
  811818891239939121216,
  664208909857538711616,
  369133079860114890816,
  664208909857538187456,
  369133079860114366656,
  664208909720133312576,
  369133079722709491776,
  664208909720133304386,
  369133079722709483586]
def residQf1_mat_cert_9 : List Nat := [664208909720132788416,
  369133079722708967616,
  664208909720132780226,
  369133079722708959426,
  664208909857538711616,
  369133079860114890816,
  664208909857538187456,
  369133079860114366656,
  516598946063029379136,
  369061031064317468736,
  369061031064317468736,
  516598946063029379136,
  516598945925623971906,
  369061030926912061506]

/-- Check residQf1_mat. C77 -/
theorem residQf1_mat : isZero kinds [aᵥ, bᵥ, iₒ, jₒ] 64
    (Prog.scale (1/4) (Prog.cap 4 71 (Prog.outs [4, 5, 0, 1, 2, 3, 6, 7] (Prog.part [[23, 39, 39]] (wnT2cubed_toT4)))) ++ (Prog.scale (-1) (residQf1)))
    (residQf1_mat_cert_0 ++ (residQf1_mat_cert_1 ++ (residQf1_mat_cert_2 ++ (residQf1_mat_cert_3 ++ (residQf1_mat_cert_4 ++ (residQf1_mat_cert_5 ++ (residQf1_mat_cert_6 ++ (residQf1_mat_cert_7 ++ (residQf1_mat_cert_8 ++ (residQf1_mat_cert_9)))))))))) = true := by decide +kernel

def residQf2_mat_cert_0 : List Nat := [521212330000207585344,
  523517609922062458944,
  521212321206262046784,
  375979686129405009984,
  523517610053026979904,
  523481581262449418304,
  523517610053026979904,
  523481581262449418304,
  523517574877244825664,
  375907628672773529664,
  523517574877244825664,
  375907628672773529664,
  521212330000207061184,
  523517609922061934784,
  521212321206261522624,
  375979686129404485824,
  523517610053024883264,
  523445552465430454464,
  523517610053024883264,
  523445552465430454464,
  523517574877242729024,
  375871599875754565824,
  523517574877242729024,
  375871599875754565824,
  521212321195524629184,
  80831780950052184384,
  521212321195524629184,
  80831780950052184384,
  521212321195526725824,
  228405733539728073024,
  521212321195526725824,
  228405733539728073024,
  523517574866507932224,
  228297647286078153024,
  523517574866507408064,
  80759723493420704064,
  521212286019742474944,
  80795752153033220544,
  521212286019742474944,
  80795752153033220544,
  523517566072561869504,
  80759723493420179904,
  523517566072562393664,
  228297647286077628864,
  521212286019744571584,
  228369704742709109184,
  521212286019744571584,
  228369704742709109184,
  521212329862802186304,
  521212329862802186304,
  521212321068856647744,
  373674406070144737344,
  523517609915621580864,
  521176301203189145664,
  523517609915621580864,
  521176301203189145664,
  523517574739839426624,
  373602348613513257024,
  523517574739839426624,
  373602348613513257024,
  521212329862801662144,
  521212329862801662144,
  521212321068856123584,
  373674406070144213184,
  523517609915619484224,
  521140272406170181824,
  523517609915619484224,
  521140272406170181824,
  523517574739837329984,
  373566319816494293184,
  523517574739837329984,
  373566319816494293184,
  521212321058119230144,
  78526500890791911744,
  521212321058119230144,
  78526500890791911744,
  521212321058121326784,
  226100453480467800384,
  521212321058121326784,
  226100453480467800384,
  523517574729102533184,
  225992367226817880384,
  523517574729102009024,
  78454443434160431424,
  521212285882337075904,
  78490472093772947904,
  521212285882337075904,
  78490472093772947904,
  523517565935156470464,
  78454443434159907264,
  523517565935156994624,
  225992367226817356224,
  521212285882339172544,
  226064424683448836544,
  521212285882339172544,
  226064424683448836544,
  521212330000106946624,
  523517046972109045824,
  521212321206161408064,
  375979123179451596864,
  523517609915487395904,
  518870458193975459904,
  523517609915487395904,
  518870458193975459904,
  523517574739705241664,
  371296505604299571264,
  523517574739705241664,
  371296505604299571264,
  521212330000106422464,
  523517046972108521664,
  521212321206160883904,
  375979123179451072704,
  523517609915485299264,
  518834429396956496064,
  523517609915485299264,
  518834429396956496064,
  523517574739703145024,
  371260476807280607424,
  523517574739703145024,
  371260476807280607424,
  521212321057985045184,
  76220657881578225984,
  521212321057985045184,
  76220657881578225984,
  521212321057987141824,
  223794610471254114624,
  521212321057987141824,
  223794610471254114624,
  523517574728968348224,
  223686524217604194624,
  523517574728967824064,
  76148600424946745664,
  521212285882202890944,
  76184629084559262144,
  521212285882202890944,
  76184629084559262144,
  523517565935022285504,
  76148600424946221504,
  523517565935022809664,
  223686524217603670464,
  521212285882204987584,
  223758581674235150784,
  521212285882204987584,
  223758581674235150784,
  521212330000106946624,
  523517046972109045824,
  521212321206161408064,
  375979123179451596864,
  523517609915487395904,
  518870458193975459904,
  523517609915487395904,
  518870458193975459904,
  523517574739705241664,
  371296505604299571264,
  523517574739705241664,
  371296505604299571264,
  521212330000106422464,
  523517046972108521664,
  521212321206160883904,
  375979123179451072704,
  523517609915485299264,
  518834429396956496064,
  523517609915485299264,
  518834429396956496064,
  523517574739703145024,
  371260476807280607424,
  523517574739703145024,
  371260476807280607424,
  521212321057985045184,
  76220657881578225984,
  521212321057985045184,
  76220657881578225984,
  521212321057987141824,
  223794610471254114624,
  521212321057987141824,
  223794610471254114624,
  523517574728968348224,
  223686524217604194624,
  523517574728967824064,
  76148600424946745664,
  521212285882202890944,
  76184629084559262144,
  521212285882202890944,
  76184629084559262144,
  523517565935022285504,
  76148600424946221504,
  523517565935022809664,
  223686524217603670464,
  521212285882204987584,
  223758581674235150784,
  521212285882204987584,
  223758581674235150784,
  521212329450485350464,
  521211203962895360064,
  521212320656539811904,
  373673280170237911104,
  523517609503271198784,
  518869895244022046784,
  523517609503271198784,
  518869895244022046784,
  523517574327489044544,
  371295942654346158144,
  523517574327489044544,
  371295942654346158144,
  521212329450484826304,
  521211203962894835904,
  521212320656539287744,
  373673280170237386944,
  523517609503269102144,
  518833866447003082944,
  523517609503269102144,
  518833866447003082944,
  523517574327486947904,
  371259913857327194304,
  523517574327486947904,
  371259913857327194304,
  521212320645768848064,
  76220094931624812864,
  521212320645768848064,
  76220094931624812864,
  521212320645770944704,
  223794047521300701504,
  521212320645770944704,
  223794047521300701504,
  523517574316752151104,
  223685961267650781504,
  523517574316751626944,
  76148037474993332544,
  521212285469986693824,
  76184066134605849024,
  521212285469986693824,
  76184066134605849024,
  523517565522806088384,
  76148037474992808384,
  523517565522806612544,
  223685961267650257344,
  521212285469988790464,
  223758018724281737664,
  521212285469988790464,
  223758018724281737664,
  521212329450485350464,
  521211203962895360064,
  521212320656539811904,
  373673280170237911104,
  523517609503271198784,
  518869895244022046784,
  523517609503271198784,
  518869895244022046784,
  523517574327489044544,
  371295942654346158144,
  523517574327489044544,
  371295942654346158144,
  521212329450484826304,
  521211203962894835904,
  521212320656539287744,
  373673280170237386944,
  523517609503269102144,
  518833866447003082944,
  523517609503269102144,
  518833866447003082944,
  523517574327486947904,
  371259913857327194304,
  523517574327486947904,
  371259913857327194304,
  521212320645768848064,
  76220094931624812864,
  521212320645768848064,
  76220094931624812864,
  521212320645770944704,
  223794047521300701504,
  521212320645770944704,
  223794047521300701504,
  523517574316752151104,
  223685961267650781504,
  523517574316751626944,
  76148037474993332544,
  521212285469986693824,
  76184066134605849024,
  521212285469986693824,
  76184066134605849024,
  523517565522806088384,
  76148037474992808384,
  523517565522806612544,
  223685961267650257344,
  521212285469988790464,
  223758018724281737664,
  521212285469988790464,
  223758018724281737664,
  521212330000207577154,
  523517609922062450754,
  521212321206262038594,
  375979686129405001794,
  523517610053026971714,
  523481581262449410114,
  523517610053026971714,
  523481581262449410114,
  523517574877244817474,
  375907628672773521474,
  523517574877244817474,
  375907628672773521474,
  521212330000207052994,
  523517609922061926594,
  521212321206261514434,
  375979686129404477634,
  523517610053024875074,
  523445552465430446274,
  523517610053024875074,
  523445552465430446274,
  523517574877242720834,
  375871599875754557634,
  523517574877242720834,
  375871599875754557634,
  521212321195524620994,
  80831780950052176194,
  521212321195524620994,
  80831780950052176194,
  521212321195526717634,
  228405733539728064834,
  521212321195526717634,
  228405733539728064834,
  523517574866507924034,
  228297647286078144834,
  523517574866507399874,
  80759723493420695874,
  521212286019742466754,
  80795752153033212354,
  521212286019742466754,
  80795752153033212354,
  523517566072561861314,
  80759723493420171714,
  523517566072562385474,
  228297647286077620674,
  521212286019744563394,
  228369704742709100994,
  521212286019744563394,
  228369704742709100994,
  521212329862802178114,
  521212329862802178114,
  521212321068856639554,
  373674406070144729154,
  523517609915621572674,
  521176301203189137474,
  523517609915621572674,
  521176301203189137474,
  523517574739839418434,
  373602348613513248834,
  523517574739839418434,
  373602348613513248834,
  521212329862801653954,
  521212329862801653954,
  521212321068856115394,
  373674406070144204994,
  523517609915619476034,
  521140272406170173634,
  523517609915619476034,
  521140272406170173634,
  523517574739837321794,
  373566319816494284994,
  523517574739837321794,
  373566319816494284994,
  521212321058119221954,
  78526500890791903554,
  521212321058119221954,
  78526500890791903554,
  521212321058121318594,
  226100453480467792194,
  521212321058121318594,
  226100453480467792194,
  523517574729102524994,
  225992367226817872194,
  523517574729102000834,
  78454443434160423234,
  521212285882337067714,
  78490472093772939714,
  521212285882337067714,
  78490472093772939714,
  523517565935156462274,
  78454443434159899074,
  523517565935156986434,
  225992367226817348034,
  521212285882339164354,
  226064424683448828354,
  521212285882339164354,
  226064424683448828354,
  521212329862667960394,
  516600643844374806594,
  521212321068722421834,
  369062720051717357634,
  523517609915487354954,
  516564615184761765954,
  523517609915487354954,
  516564615184761765954,
  523517574739705200714,
  368990662595085877314,
  523517574739705200714,
  368990662595085877314,
  521212329862667436234,
  516600643844374282434,
  521212321068721897674,
  369062720051716833474]
def residQf2_mat_cert_1 : List Nat := [523517609915485258314,
  516528586387742802114,
  523517609915485258314,
  516528586387742802114,
  523517574739703104074,
  368954633798066913474,
  523517574739703104074,
  368954633798066913474,
  521212321057985004234,
  73914814872364532034,
  521212321057985004234,
  73914814872364532034,
  521212321057987100874,
  221488767462040420674,
  521212321057987100874,
  221488767462040420674,
  523517574866407260744,
  228296521386171318594,
  523517574866406736584,
  80758597593513869634,
  521212285882202849994,
  73878786075345568194,
  521212285882202849994,
  73878786075345568194,
  523517566072461198024,
  80758597593513345474,
  523517566072461722184,
  228296521386170794434,
  521212285882204946634,
  221452738665021456834,
  521212285882204946634,
  221452738665021456834,
  521212329862667960394,
  516600643844374806594,
  521212321068722421834,
  369062720051717357634,
  523517609915487354954,
  516564615184761765954,
  523517609915487354954,
  516564615184761765954,
  523517574739705200714,
  368990662595085877314,
  523517574739705200714,
  368990662595085877314,
  521212329862667436234,
  516600643844374282434,
  521212321068721897674,
  369062720051716833474,
  523517609915485258314,
  516528586387742802114,
  523517609915485258314,
  516528586387742802114,
  523517574739703104074,
  368954633798066913474,
  523517574739703104074,
  368954633798066913474,
  521212321057985004234,
  73914814872364532034,
  521212321057985004234,
  73914814872364532034,
  521212321057987100874,
  221488767462040420674,
  521212321057987100874,
  221488767462040420674,
  523517574866407260744,
  228296521386171318594,
  523517574866406736584,
  80758597593513869634,
  521212285882202849994,
  73878786075345568194,
  521212285882202849994,
  73878786075345568194,
  523517566072461198024,
  80758597593513345474,
  523517566072461722184,
  228296521386170794434,
  521212285882204946634,
  221452738665021456834,
  521212285882204946634,
  221452738665021456834,
  521212329450451763274,
  516600080894421393474,
  521212320656506224714,
  369062157101763944514,
  523517609503271157834,
  516564052234808352834,
  523517609503271157834,
  516564052234808352834,
  523517574327489003594,
  368990099645132464194,
  523517574327489003594,
  368990099645132464194,
  521212329450451239114,
  516600080894420869314,
  521212320656505700554,
  369062157101763420354,
  523517609503269061194,
  516528023437789388994,
  523517609503269061194,
  516528023437789388994,
  523517574327486906954,
  368954070848113500354,
  523517574327486906954,
  368954070848113500354,
  521212320645768807114,
  73914251922411118914,
  521212320645768807114,
  73914251922411118914,
  521212320645770903754,
  221488204512087007554,
  521212320645770903754,
  221488204512087007554,
  523517574316785664584,
  225990678376957632834,
  523517574316785140424,
  78452754584300183874,
  521212285469986652874,
  73878223125392155074,
  521212285469986652874,
  73878223125392155074,
  523517565522839601864,
  78452754584299659714,
  523517565522840126024,
  225990678376957108674,
  521212285469988749514,
  221452175715068043714,
  521212285469988749514,
  221452175715068043714,
  521212329450451763274,
  516600080894421393474,
  521212320656506224714,
  369062157101763944514,
  523517609503271157834,
  516564052234808352834,
  523517609503271157834,
  516564052234808352834,
  523517574327489003594,
  368990099645132464194,
  523517574327489003594,
  368990099645132464194,
  521212329450451239114,
  516600080894420869314,
  521212320656505700554,
  369062157101763420354,
  523517609503269061194,
  516528023437789388994,
  523517609503269061194,
  516528023437789388994,
  523517574327486906954,
  368954070848113500354,
  523517574327486906954,
  368954070848113500354,
  521212320645768807114,
  73914251922411118914,
  521212320645768807114,
  73914251922411118914,
  521212320645770903754,
  221488204512087007554,
  521212320645770903754,
  221488204512087007554,
  523517574316785664584,
  225990678376957632834,
  523517574316785140424,
  78452754584300183874,
  521212285469986652874,
  73878223125392155074,
  521212285469986652874,
  73878223125392155074,
  523517565522839601864,
  78452754584299659714,
  523517565522840126024,
  225990678376957108674,
  521212285469988749514,
  221452175715068043714,
  521212285469988749514,
  221452175715068043714,
  521212329862634414154,
  516600643844374798404,
  521212321068688875594,
  369062720051717349444,
  523517609915453808714,
  516564615184761757764,
  523517609915453808714,
  516564615184761757764,
  523517574739671654474,
  368990662595085869124,
  523517574739671654474,
  368990662595085869124,
  521212329862633889994,
  516600643844374274244,
  521212321068688351434,
  369062720051716825284,
  523517609915451712074,
  516528586387742793924,
  523517609915451712074,
  516528586387742793924,
  523517574739669557834,
  368954633798066905284,
  523517574739669557834,
  368954633798066905284,
  521212321057951457994,
  73914814872364523844,
  521212321057951457994,
  73914814872364523844,
  521212321057953554634,
  221488767462040412484,
  521212321057953554634,
  221488767462040412484,
  523517574866373714504,
  228296521386171310404,
  523517574866373190344,
  80758597593513861444,
  521212285882169303754,
  73878786075345560004,
  521212285882169303754,
  73878786075345560004,
  523517566072427651784,
  80758597593513337284,
  523517566072428175944,
  228296521386170786244,
  521212285882171400394,
  221452738665021448644,
  521212285882171400394,
  221452738665021448644,
  521212329862634414154,
  516600643844374798404,
  521212321068688875594,
  369062720051717349444,
  523517609915453808714,
  516564615184761757764,
  523517609915453808714,
  516564615184761757764,
  523517574739671654474,
  368990662595085869124,
  523517574739671654474,
  368990662595085869124,
  521212329862633889994,
  516600643844374274244,
  521212321068688351434,
  369062720051716825284,
  523517609915451712074,
  516528586387742793924,
  523517609915451712074,
  516528586387742793924,
  523517574739669557834,
  368954633798066905284,
  523517574739669557834,
  368954633798066905284,
  521212321057951457994,
  73914814872364523844,
  521212321057951457994,
  73914814872364523844,
  521212321057953554634,
  221488767462040412484,
  521212321057953554634,
  221488767462040412484,
  523517574866373714504,
  228296521386171310404,
  523517574866373190344,
  80758597593513861444,
  521212285882169303754,
  73878786075345560004,
  521212285882169303754,
  73878786075345560004,
  523517566072427651784,
  80758597593513337284,
  523517566072428175944,
  228296521386170786244,
  521212285882171400394,
  221452738665021448644,
  521212285882171400394,
  221452738665021448644,
  521212330000073392194,
  523517046972109029444,
  521212321206127853634,
  375979123179451580484,
  523517609915453841474,
  518870458193975443524,
  523517609915453841474,
  518870458193975443524,
  523517574739671687234,
  371296505604299554884,
  523517574739671687234,
  371296505604299554884,
  521212330000072868034,
  523517046972108505284,
  521212321206127329474,
  375979123179451056324,
  523517609915451744834,
  518834429396956479684,
  523517609915451744834,
  518834429396956479684,
  523517574739669590594,
  371260476807280591044,
  523517574739669590594,
  371260476807280591044,
  521212321057951490754,
  76220657881578209604,
  521212321057951490754,
  76220657881578209604,
  521212321057953587394,
  223794610471254098244,
  521212321057953587394,
  223794610471254098244,
  523517574728934793794,
  223686524217604178244,
  523517574728934269634,
  76148600424946729284,
  521212285882169336514,
  76184629084559245764,
  521212285882169336514,
  76184629084559245764,
  523517565934988731074,
  76148600424946205124,
  523517565934989255234,
  223686524217603654084,
  521212285882171433154,
  223758581674235134404,
  521212285882171433154,
  223758581674235134404,
  521212330000073392194,
  523517046972109029444,
  521212321206127853634,
  375979123179451580484,
  523517609915453841474,
  518870458193975443524,
  523517609915453841474,
  518870458193975443524,
  523517574739671687234,
  371296505604299554884,
  523517574739671687234,
  371296505604299554884,
  521212330000072868034,
  523517046972108505284,
  521212321206127329474,
  375979123179451056324,
  523517609915451744834,
  518834429396956479684,
  523517609915451744834,
  518834429396956479684,
  523517574739669590594,
  371260476807280591044,
  523517574739669590594,
  371260476807280591044,
  521212321057951490754,
  76220657881578209604,
  521212321057951490754,
  76220657881578209604,
  521212321057953587394,
  223794610471254098244,
  521212321057953587394,
  223794610471254098244,
  523517574728934793794,
  223686524217604178244,
  523517574728934269634,
  76148600424946729284,
  521212285882169336514,
  76184629084559245764,
  521212285882169336514,
  76184629084559245764,
  523517565934988731074,
  76148600424946205124,
  523517565934989255234,
  223686524217603654084,
  521212285882171433154,
  223758581674235134404,
  521212285882171433154,
  223758581674235134404,
  521212329450317578314,
  516599517944467972164,
  521212320656372039754,
  369061594151810523204,
  523517609503136981064,
  518868769344115204164,
  523517609503136981064,
  518868769344115204164,
  523517574327354826824,
  371294816754439315524,
  523517574327354826824,
  371294816754439315524,
  521212329450317054154,
  516599517944467448004,
  521212320656371515594,
  369061594151809999044,
  523517609503134884424,
  518832740547096240324,
  523517609503134884424,
  518832740547096240324,
  523517574327352730184,
  371258787957420351684,
  523517574327352730184,
  371258787957420351684,
  521212320645634622154,
  73913688972457697604,
  521212320645634622154,
  73913688972457697604,
  521212320645636718794,
  221487641562133586244,
  521212320645636718794,
  221487641562133586244]
def residQf2_mat_cert_2 : List Nat := [523517574316617933384,
  223684835367743938884,
  523517574316617409224,
  76146911575086489924,
  521212285469852467914,
  73877660175438733764,
  521212285469852467914,
  73877660175438733764,
  523517565522671870664,
  76146911575085965764,
  523517565522672394824,
  223684835367743414724,
  521212285469854564554,
  221451612765114622404,
  521212285469854564554,
  221451612765114622404,
  521212329450317578314,
  516599517944467972164,
  521212320656372039754,
  369061594151810523204,
  523517609503136981064,
  518868769344115204164,
  523517609503136981064,
  518868769344115204164,
  523517574327354826824,
  371294816754439315524,
  523517574327354826824,
  371294816754439315524,
  521212329450317054154,
  516599517944467448004,
  521212320656371515594,
  369061594151809999044,
  523517609503134884424,
  518832740547096240324,
  523517609503134884424,
  518832740547096240324,
  523517574327352730184,
  371258787957420351684,
  523517574327352730184,
  371258787957420351684,
  521212320645634622154,
  73913688972457697604,
  521212320645634622154,
  73913688972457697604,
  521212320645636718794,
  221487641562133586244,
  521212320645636718794,
  221487641562133586244,
  523517574316617933384,
  223684835367743938884,
  523517574316617409224,
  76146911575086489924,
  521212285469852467914,
  73877660175438733764,
  521212285469852467914,
  73877660175438733764,
  523517565522671870664,
  76146911575085965764,
  523517565522672394824,
  223684835367743414724,
  521212285469854564554,
  221451612765114622404,
  521212285469854564554,
  221451612765114622404,
  521212329313012817994,
  516600080894421377094,
  521212320519067279434,
  369062157101763928134,
  523517609365832212554,
  516564052234808336454,
  523517609365832212554,
  516564052234808336454,
  523517574190050058314,
  368990099645132447814,
  523517574190050058314,
  368990099645132447814,
  521212329313012293834,
  516600080894420852934,
  521212320519066755274,
  369062157101763403974,
  523517609365830115914,
  516528023437789372614,
  523517609365830115914,
  516528023437789372614,
  523517574190047961674,
  368954070848113483974,
  523517574190047961674,
  368954070848113483974,
  521212320508329861834,
  73914251922411102534,
  521212320508329861834,
  73914251922411102534,
  521212320508331958474,
  221488204512086991174,
  521212320508331958474,
  221488204512086991174,
  523517574179346719304,
  225990678376957616454,
  523517574179346195144,
  78452754584300167494,
  521212285332547707594,
  73878223125392138694,
  521212285332547707594,
  73878223125392138694,
  523517565385400656584,
  78452754584299643334,
  523517565385401180744,
  225990678376957092294,
  521212285332549804234,
  221452175715068027334,
  521212285332549804234,
  221452175715068027334,
  521212329313012817994,
  516600080894421377094,
  521212320519067279434,
  369062157101763928134,
  523517609365832212554,
  516564052234808336454,
  523517609365832212554,
  516564052234808336454,
  523517574190050058314,
  368990099645132447814,
  523517574190050058314,
  368990099645132447814,
  521212329313012293834,
  516600080894420852934,
  521212320519066755274,
  369062157101763403974,
  523517609365830115914,
  516528023437789372614,
  523517609365830115914,
  516528023437789372614,
  523517574190047961674,
  368954070848113483974,
  523517574190047961674,
  368954070848113483974,
  521212320508329861834,
  73914251922411102534,
  521212320508329861834,
  73914251922411102534,
  521212320508331958474,
  221488204512086991174,
  521212320508331958474,
  221488204512086991174,
  523517574179346719304,
  225990678376957616454,
  523517574179346195144,
  78452754584300167494,
  521212285332547707594,
  73878223125392138694,
  521212285332547707594,
  73878223125392138694,
  523517565385400656584,
  78452754584299643334,
  523517565385401180744,
  225990678376957092294,
  521212285332549804234,
  221452175715068027334,
  521212285332549804234,
  221452175715068027334,
  521212329312912179274,
  516599517944467963974,
  521212320518966640714,
  369061594151810515014,
  523517609365731582024,
  518868769344115195974,
  523517609365731582024,
  518868769344115195974,
  523517574189949427784,
  371294816754439307334,
  523517574189949427784,
  371294816754439307334,
  521212329312911655114,
  516599517944467439814,
  521212320518966116554,
  369061594151809990854,
  523517609365729485384,
  518832740547096232134,
  523517609365729485384,
  518832740547096232134,
  523517574189947331144,
  371258787957420343494,
  523517574189947331144,
  371258787957420343494,
  521212320508229223114,
  73913688972457689414,
  521212320508229223114,
  73913688972457689414,
  521212320508231319754,
  221487641562133578054,
  521212320508231319754,
  221487641562133578054,
  523517574179212534344,
  223684835367743930694,
  523517574179212010184,
  76146911575086481734,
  521212285332447068874,
  73877660175438725574,
  521212285332447068874,
  73877660175438725574,
  523517565385266471624,
  76146911575085957574,
  523517565385266995784,
  223684835367743406534,
  521212285332449165514,
  221451612765114614214,
  521212285332449165514,
  221451612765114614214,
  521212329312912179274,
  516599517944467963974,
  521212320518966640714,
  369061594151810515014,
  523517609365731582024,
  518868769344115195974,
  523517609365731582024,
  518868769344115195974,
  523517574189949427784,
  371294816754439307334,
  523517574189949427784,
  371294816754439307334,
  521212329312911655114,
  516599517944467439814,
  521212320518966116554,
  369061594151809990854,
  523517609365729485384,
  518832740547096232134,
  523517609365729485384,
  518832740547096232134,
  523517574189947331144,
  371258787957420343494,
  523517574189947331144,
  371258787957420343494,
  521212320508229223114,
  73913688972457689414,
  521212320508229223114,
  73913688972457689414,
  521212320508231319754,
  221487641562133578054,
  521212320508231319754,
  221487641562133578054,
  523517574179212534344,
  223684835367743930694,
  523517574179212010184,
  76146911575086481734,
  521212285332447068874,
  73877660175438725574,
  521212285332447068874,
  73877660175438725574,
  523517565385266471624,
  76146911575085957574,
  523517565385266995784,
  223684835367743406534,
  521212285332449165514,
  221451612765114614214,
  521212285332449165514,
  221451612765114614214,
  521212329313046396994,
  521211203962895335494,
  521212320519100858434,
  373673280170237886534,
  523517609365832245314,
  518869895244022022214,
  523517609365832245314,
  518869895244022022214,
  523517574190050091074,
  371295942654346133574,
  523517574190050091074,
  371295942654346133574,
  521212329313045872834,
  521211203962894811334,
  521212320519100334274,
  373673280170237362374,
  523517609365830148674,
  518833866447003058374,
  523517609365830148674,
  518833866447003058374,
  523517574190047994434,
  371259913857327169734,
  523517574190047994434,
  371259913857327169734,
  521212320508329894594,
  76220094931624788294,
  521212320508329894594,
  76220094931624788294,
  521212320508331991234,
  223794047521300676934,
  521212320508331991234,
  223794047521300676934,
  523517574179313197634,
  223685961267650756934,
  523517574179312673474,
  76148037474993307974,
  521212285332547740354,
  76184066134605824454,
  521212285332547740354,
  76184066134605824454,
  523517565385367134914,
  76148037474992783814,
  523517565385367659074,
  223685961267650232774,
  521212285332549836994,
  223758018724281713094,
  521212285332549836994,
  223758018724281713094,
  521212329313046396994,
  521211203962895335494,
  521212320519100858434,
  373673280170237886534,
  523517609365832245314,
  518869895244022022214,
  523517609365832245314,
  518869895244022022214,
  523517574190050091074,
  371295942654346133574,
  523517574190050091074,
  371295942654346133574,
  521212329313045872834,
  521211203962894811334,
  521212320519100334274,
  373673280170237362374,
  523517609365830148674,
  518833866447003058374,
  523517609365830148674,
  518833866447003058374,
  523517574190047994434,
  371259913857327169734,
  523517574190047994434,
  371259913857327169734,
  521212320508329894594,
  76220094931624788294,
  521212320508329894594,
  76220094931624788294,
  521212320508331991234,
  223794047521300676934,
  521212320508331991234,
  223794047521300676934,
  523517574179313197634,
  223685961267650756934,
  523517574179312673474,
  76148037474993307974,
  521212285332547740354,
  76184066134605824454,
  521212285332547740354,
  76184066134605824454,
  523517565385367134914,
  76148037474992783814,
  523517565385367659074,
  223685961267650232774,
  521212285332549836994,
  223758018724281713094,
  521212285332549836994,
  223758018724281713094,
  373674397276199198784,
  373674397276199198784,
  373674397276199198784,
  373674397276199198784,
  373674397267611361344,
  226100444686523310144,
  373674397267611361344,
  226100444686523310144,
  523517574875097866304,
  228369704880116080704,
  523517574875097866304,
  228369704880116080704,
  373674397276198674624,
  373674397276198674624,
  373674397276198674624,
  373674397276198674624,
  373674397267608740544,
  78526492096846897344,
  373674397267608740544,
  78526492096846897344,
  523517574875095245504,
  80795752290439667904,
  523517574875095245504,
  80795752290439667904,
  373674397265461781184,
  78526492096846373184,
  373674397265461781184,
  78526492096846373184,
  373674397265463877824,
  226100444686522261824,
  373674397265463877824,
  226100444686522261824,
  523517574866507932224,
  228297647286078153024,
  523517574866507408064,
  80759723493420704064,
  521212286019742474944,
  80795752153033220544,
  521212286019742474944,
  80795752153033220544,
  375979642142499021504,
  78454434640214368704,
  375979642142499545664,
  225992358432871817664,
  521212286019744571584,
  228369704742709109184,
  521212286019744571584,
  228369704742709109184]
def residQf2_mat_cert_3 : List Nat := [373674397276199198784,
  373674397276199198784,
  373674397276199198784,
  373674397276199198784,
  373674397267611361344,
  226100444686523310144,
  373674397267611361344,
  226100444686523310144,
  523517574875097866304,
  228369704880116080704,
  523517574875097866304,
  228369704880116080704,
  373674397276198674624,
  373674397276198674624,
  373674397276198674624,
  373674397276198674624,
  373674397267608740544,
  78526492096846897344,
  373674397267608740544,
  78526492096846897344,
  523517574875095245504,
  80795752290439667904,
  523517574875095245504,
  80795752290439667904,
  373674397265461781184,
  78526492096846373184,
  373674397265461781184,
  78526492096846373184,
  373674397265463877824,
  226100444686522261824,
  373674397265463877824,
  226100444686522261824,
  523517574866507932224,
  228297647286078153024,
  523517574866507408064,
  80759723493420704064,
  521212286019742474944,
  80795752153033220544,
  521212286019742474944,
  80795752153033220544,
  375979642142499021504,
  78454434640214368704,
  375979642142499545664,
  225992358432871817664,
  521212286019744571584,
  228369704742709109184,
  521212286019744571584,
  228369704742709109184,
  373674397276065013824,
  371368554266985513024,
  373674397276065013824,
  371368554266985513024,
  373674397267477176384,
  223794601677309624384,
  373674397267477176384,
  223794601677309624384,
  523517574874997227584,
  228369141930162667584,
  523517574874997227584,
  228369141930162667584,
  373674397276064489664,
  371368554266984988864,
  373674397276064489664,
  371368554266984988864,
  373674397267474555584,
  76220649087633211584,
  373674397267474555584,
  76220649087633211584,
  523517574874994606784,
  80795189340486254784,
  523517574874994606784,
  80795189340486254784,
  373674397265327596224,
  76220649087632687424,
  373674397265327596224,
  76220649087632687424,
  373674397265329692864,
  223794601677308576064,
  373674397265329692864,
  223794601677308576064,
  523517574866407293504,
  228297084336124739904,
  523517574866406769344,
  80759160543467290944,
  521212286019641836224,
  80795189203079807424,
  521212286019641836224,
  80795189203079807424,
  375979642142364836544,
  76148591631000682944,
  375979642142365360704,
  223686515423658131904,
  521212286019643932864,
  228369141792755696064,
  521212286019643932864,
  228369141792755696064,
  373674397276065013824,
  371368554266985513024,
  373674397276065013824,
  371368554266985513024,
  373674397267477176384,
  223794601677309624384,
  373674397267477176384,
  223794601677309624384,
  523517574874997227584,
  228369141930162667584,
  523517574874997227584,
  228369141930162667584,
  373674397276064489664,
  371368554266984988864,
  373674397276064489664,
  371368554266984988864,
  373674397267474555584,
  76220649087633211584,
  373674397267474555584,
  76220649087633211584,
  523517574874994606784,
  80795189340486254784,
  523517574874994606784,
  80795189340486254784,
  373674397265327596224,
  76220649087632687424,
  373674397265327596224,
  76220649087632687424,
  373674397265329692864,
  223794601677308576064,
  373674397265329692864,
  223794601677308576064,
  523517574866407293504,
  228297084336124739904,
  523517574866406769344,
  80759160543467290944,
  521212286019641836224,
  80795189203079807424,
  521212286019641836224,
  80795189203079807424,
  375979642142364836544,
  76148591631000682944,
  375979642142365360704,
  223686515423658131904,
  521212286019643932864,
  228369141792755696064,
  521212286019643932864,
  228369141792755696064,
  521212329450451804224,
  518905923903635087424,
  521212329450451804224,
  518905923903635087424,
  373674396855260979264,
  223794038727356211264,
  373674396855260979264,
  223794038727356211264,
  523517574325342085184,
  223758018861688709184,
  523517574325342085184,
  223758018861688709184,
  521212329450451280064,
  518905923903634563264,
  521212329450451280064,
  518905923903634563264,
  373674396855258358464,
  76220086137679798464,
  373674396855258358464,
  76220086137679798464,
  523517574325339464384,
  76184066272012296384,
  523517574325339464384,
  76184066272012296384,
  373674396853111399104,
  76220086137679274304,
  373674396853111399104,
  76220086137679274304,
  373674396853113495744,
  223794038727355162944,
  373674396853113495744,
  223794038727355162944,
  523517574316752151104,
  223685961267650781504,
  523517574316751626944,
  76148037474993332544,
  521212285469986693824,
  76184066134605849024,
  521212285469986693824,
  76184066134605849024,
  375979641730148639424,
  76148028681047269824,
  375979641730149163584,
  223685952473704718784,
  521212285469988790464,
  223758018724281737664,
  521212285469988790464,
  223758018724281737664,
  521212329450485350464,
  521211203962895360064,
  521212329450485350464,
  521211203962895360064,
  373674396855294525504,
  226099318786616483904,
  373674396855294525504,
  226099318786616483904,
  523517574325375631424,
  226063298920948981824,
  523517574325375631424,
  226063298920948981824,
  521212329450484826304,
  521211203962894835904,
  521212329450484826304,
  521211203962894835904,
  373674396855291904704,
  78525366196940071104,
  373674396855291904704,
  78525366196940071104,
  523517574325373010624,
  78489346331272569024,
  523517574325373010624,
  78489346331272569024,
  373674396853144945344,
  78525366196939546944,
  373674396853144945344,
  78525366196939546944,
  373674396853147041984,
  226099318786615435584,
  373674396853147041984,
  226099318786615435584,
  523517574316785697344,
  225991241326911054144,
  523517574316785173184,
  78453317534253605184,
  521212285470020240064,
  78489346193866121664,
  521212285470020240064,
  78489346193866121664,
  375979641730182185664,
  78453308740307542464,
  375979641730182709824,
  225991232532964991424,
  521212285470022336704,
  226063298783542010304,
  521212285470022336704,
  226063298783542010304,
  373674397276199190594,
  373674397276199190594,
  373674397276199190594,
  373674397276199190594,
  373674397267611353154,
  226100444686523301954,
  373674397267611353154,
  226100444686523301954,
  523517574875097858114,
  228369704880116072514,
  523517574875097858114,
  228369704880116072514,
  373674397276198666434,
  373674397276198666434,
  373674397276198666434,
  373674397276198666434,
  373674397267608732354,
  78526492096846889154,
  373674397267608732354,
  78526492096846889154,
  523517574875095237314,
  80795752290439659714,
  523517574875095237314,
  80795752290439659714,
  373674397265461772994,
  78526492096846364994,
  373674397265461772994,
  78526492096846364994,
  373674397265463869634,
  226100444686522253634,
  373674397265463869634,
  226100444686522253634,
  523517574866507924034,
  228297647286078144834,
  523517574866507399874,
  80759723493420695874,
  521212286019742466754,
  80795752153033212354,
  521212286019742466754,
  80795752153033212354,
  375979642142499013314,
  78454434640214360514,
  375979642142499537474,
  225992358432871809474,
  521212286019744563394,
  228369704742709100994,
  521212286019744563394,
  228369704742709100994,
  373674397276199190594,
  373674397276199190594,
  373674397276199190594,
  373674397276199190594,
  373674397267611353154,
  226100444686523301954,
  373674397267611353154,
  226100444686523301954,
  523517574875097858114,
  228369704880116072514,
  523517574875097858114,
  228369704880116072514,
  373674397276198666434,
  373674397276198666434,
  373674397276198666434,
  373674397276198666434,
  373674397267608732354,
  78526492096846889154,
  373674397267608732354,
  78526492096846889154,
  523517574875095237314,
  80795752290439659714,
  523517574875095237314,
  80795752290439659714,
  373674397265461772994,
  78526492096846364994,
  373674397265461772994,
  78526492096846364994,
  373674397265463869634,
  226100444686522253634,
  373674397265463869634,
  226100444686522253634,
  523517574866507924034,
  228297647286078144834,
  523517574866507399874,
  80759723493420695874,
  521212286019742466754,
  80795752153033212354,
  521212286019742466754,
  80795752153033212354,
  375979642142499013314,
  78454434640214360514,
  375979642142499537474,
  225992358432871809474,
  521212286019744563394,
  228369704742709100994,
  521212286019744563394,
  228369704742709100994,
  373674397276064972874,
  369062711257771819074,
  373674397276064972874,
  369062711257771819074,
  373674397267477135434,
  221488758668095930434,
  373674397267477135434,
  221488758668095930434,
  523517574874997194824,
  228368578980209246274,
  523517574874997194824,
  228368578980209246274,
  373674397276064448714,
  369062711257771294914,
  373674397276064448714,
  369062711257771294914,
  373674397267474514634,
  73914806078419517634,
  373674397267474514634,
  73914806078419517634,
  523517574874994574024,
  80794626390532833474,
  523517574874994574024,
  80794626390532833474,
  373674397265327555274,
  73914806078418993474,
  373674397265327555274,
  73914806078418993474,
  373674397265329651914,
  221488758668094882114,
  373674397265329651914,
  221488758668094882114,
  523517574866407260744,
  228296521386171318594,
  523517574866406736584,
  80758597593513869634,
  521212285882202849994,
  73878786075345568194,
  521212285882202849994,
  73878786075345568194,
  375979642279803749064,
  80758588799567806914,
  375979642279804273224,
  228296512592225255874,
  521212285882204946634,
  221452738665021456834,
  521212285882204946634,
  221452738665021456834,
  373674397276064972874,
  369062711257771819074,
  373674397276064972874,
  369062711257771819074,
  373674397267477135434,
  221488758668095930434,
  373674397267477135434,
  221488758668095930434,
  523517574874997194824,
  228368578980209246274,
  523517574874997194824,
  228368578980209246274,
  373674397276064448714,
  369062711257771294914,
  373674397276064448714,
  369062711257771294914]
def residQf2_mat_cert_4 : List Nat := [373674397267474514634,
  73914806078419517634,
  373674397267474514634,
  73914806078419517634,
  523517574874994574024,
  80794626390532833474,
  523517574874994574024,
  80794626390532833474,
  373674397265327555274,
  73914806078418993474,
  373674397265327555274,
  73914806078418993474,
  373674397265329651914,
  221488758668094882114,
  373674397265329651914,
  221488758668094882114,
  523517574866407260744,
  228296521386171318594,
  523517574866406736584,
  80758597593513869634,
  521212285882202849994,
  73878786075345568194,
  521212285882202849994,
  73878786075345568194,
  375979642279803749064,
  80758588799567806914,
  375979642279804273224,
  228296512592225255874,
  521212285882204946634,
  221452738665021456834,
  521212285882204946634,
  221452738665021456834,
  521212329450451763274,
  516600080894421393474,
  521212329450451763274,
  516600080894421393474,
  373674396855294492744,
  226098755836663062594,
  373674396855294492744,
  226098755836663062594,
  523517574325342044234,
  221452175852475015234,
  523517574325342044234,
  221452175852475015234,
  521212329450451239114,
  516600080894420869314,
  521212329450451239114,
  516600080894420869314,
  373674396855291871944,
  78524803246986649794,
  373674396855291871944,
  78524803246986649794,
  523517574325339423434,
  73878223262798602434,
  523517574325339423434,
  73878223262798602434,
  373674396853111358154,
  73914243128465580354,
  373674396853111358154,
  73914243128465580354,
  373674396853113454794,
  221488195718141468994,
  373674396853113454794,
  221488195718141468994,
  523517574316785664584,
  225990678376957632834,
  523517574316785140424,
  78452754584300183874,
  521212285469986652874,
  73878223125392155074,
  521212285469986652874,
  73878223125392155074,
  375979641730182152904,
  78452745790354121154,
  375979641730182677064,
  225990669583011570114,
  521212285469988749514,
  221452175715068043714,
  521212285469988749514,
  221452175715068043714,
  521212329450451763274,
  516600080894421393474,
  521212329450451763274,
  516600080894421393474,
  373674396855294492744,
  226098755836663062594,
  373674396855294492744,
  226098755836663062594,
  523517574325342044234,
  221452175852475015234,
  523517574325342044234,
  221452175852475015234,
  521212329450451239114,
  516600080894420869314,
  521212329450451239114,
  516600080894420869314,
  373674396855291871944,
  78524803246986649794,
  373674396855291871944,
  78524803246986649794,
  523517574325339423434,
  73878223262798602434,
  523517574325339423434,
  73878223262798602434,
  373674396853111358154,
  73914243128465580354,
  373674396853111358154,
  73914243128465580354,
  373674396853113454794,
  221488195718141468994,
  373674396853113454794,
  221488195718141468994,
  523517574316785664584,
  225990678376957632834,
  523517574316785140424,
  78452754584300183874,
  521212285469986652874,
  73878223125392155074,
  521212285469986652874,
  73878223125392155074,
  375979641730182152904,
  78452745790354121154,
  375979641730182677064,
  225990669583011570114,
  521212285469988749514,
  221452175715068043714,
  521212285469988749514,
  221452175715068043714,
  373674397276031426634,
  369062711257771810884,
  373674397276031426634,
  369062711257771810884,
  373674397267443589194,
  221488758668095922244,
  373674397267443589194,
  221488758668095922244,
  523517574874963648584,
  228368578980209238084,
  523517574874963648584,
  228368578980209238084,
  373674397276030902474,
  369062711257771286724,
  373674397276030902474,
  369062711257771286724,
  373674397267440968394,
  73914806078419509444,
  373674397267440968394,
  73914806078419509444,
  523517574874961027784,
  80794626390532825284,
  523517574874961027784,
  80794626390532825284,
  373674397265294009034,
  73914806078418985284,
  373674397265294009034,
  73914806078418985284,
  373674397265296105674,
  221488758668094873924,
  373674397265296105674,
  221488758668094873924,
  523517574866373714504,
  228296521386171310404,
  523517574866373190344,
  80758597593513861444,
  521212285882169303754,
  73878786075345560004,
  521212285882169303754,
  73878786075345560004,
  375979642279770202824,
  80758588799567798724,
  375979642279770726984,
  228296512592225247684,
  521212285882171400394,
  221452738665021448644,
  521212285882171400394,
  221452738665021448644,
  373674397276031426634,
  369062711257771810884,
  373674397276031426634,
  369062711257771810884,
  373674397267443589194,
  221488758668095922244,
  373674397267443589194,
  221488758668095922244,
  523517574874963648584,
  228368578980209238084,
  523517574874963648584,
  228368578980209238084,
  373674397276030902474,
  369062711257771286724,
  373674397276030902474,
  369062711257771286724,
  373674397267440968394,
  73914806078419509444,
  373674397267440968394,
  73914806078419509444,
  523517574874961027784,
  80794626390532825284,
  523517574874961027784,
  80794626390532825284,
  373674397265294009034,
  73914806078418985284,
  373674397265294009034,
  73914806078418985284,
  373674397265296105674,
  221488758668094873924,
  373674397265296105674,
  221488758668094873924,
  523517574866373714504,
  228296521386171310404,
  523517574866373190344,
  80758597593513861444,
  521212285882169303754,
  73878786075345560004,
  521212285882169303754,
  73878786075345560004,
  375979642279770202824,
  80758588799567798724,
  375979642279770726984,
  228296512592225247684,
  521212285882171400394,
  221452738665021448644,
  521212285882171400394,
  221452738665021448644,
  373674397276031459394,
  371368554266985496644,
  373674397276031459394,
  371368554266985496644,
  373674397267443621954,
  223794601677309608004,
  373674397267443621954,
  223794601677309608004,
  523517574874963673154,
  228369141930162651204,
  523517574874963673154,
  228369141930162651204,
  373674397276030935234,
  371368554266984972484,
  373674397276030935234,
  371368554266984972484,
  373674397267441001154,
  76220649087633195204,
  373674397267441001154,
  76220649087633195204,
  523517574874961052354,
  80795189340486238404,
  523517574874961052354,
  80795189340486238404,
  373674397265294041794,
  76220649087632671044,
  373674397265294041794,
  76220649087632671044,
  373674397265296138434,
  223794601677308559684,
  373674397265296138434,
  223794601677308559684,
  523517574866373739074,
  228297084336124723524,
  523517574866373214914,
  80759160543467274564,
  521212286019608281794,
  80795189203079791044,
  521212286019608281794,
  80795189203079791044,
  375979642142331282114,
  76148591631000666564,
  375979642142331806274,
  223686515423658115524,
  521212286019610378434,
  228369141792755679684,
  521212286019610378434,
  228369141792755679684,
  373674397276031459394,
  371368554266985496644,
  373674397276031459394,
  371368554266985496644,
  373674397267443621954,
  223794601677309608004,
  373674397267443621954,
  223794601677309608004,
  523517574874963673154,
  228369141930162651204,
  523517574874963673154,
  228369141930162651204,
  373674397276030935234,
  371368554266984972484,
  373674397276030935234,
  371368554266984972484,
  373674397267441001154,
  76220649087633195204,
  373674397267441001154,
  76220649087633195204,
  523517574874961052354,
  80795189340486238404,
  523517574874961052354,
  80795189340486238404,
  373674397265294041794,
  76220649087632671044,
  373674397265294041794,
  76220649087632671044,
  373674397265296138434,
  223794601677308559684,
  373674397265296138434,
  223794601677308559684,
  523517574866373739074,
  228297084336124723524,
  523517574866373214914,
  80759160543467274564,
  521212286019608281794,
  80795189203079791044,
  521212286019608281794,
  80795189203079791044,
  375979642142331282114,
  76148591631000666564,
  375979642142331806274,
  223686515423658115524,
  521212286019610378434,
  228369141792755679684,
  521212286019610378434,
  228369141792755679684,
  521212329450317578314,
  516599517944467972164,
  521212329450317578314,
  516599517944467972164,
  373674396855126761544,
  223792912827449368644,
  373674396855126761544,
  223792912827449368644,
  523517574325207859274,
  221451612902521593924,
  523517574325207859274,
  221451612902521593924,
  521212329450317054154,
  516599517944467448004,
  521212329450317054154,
  516599517944467448004,
  373674396855124140744,
  76218960237772955844,
  373674396855124140744,
  76218960237772955844,
  523517574325205238474,
  73877660312845181124,
  523517574325205238474,
  73877660312845181124,
  373674396852977173194,
  73913680178512159044,
  373674396852977173194,
  73913680178512159044,
  373674396852979269834,
  221487632768188047684,
  373674396852979269834,
  221487632768188047684,
  523517574316617933384,
  223684835367743938884,
  523517574316617409224,
  76146911575086489924,
  521212285469852467914,
  73877660175438733764,
  521212285469852467914,
  73877660175438733764,
  375979641730014421704,
  76146902781140427204,
  375979641730014945864,
  223684826573797876164,
  521212285469854564554,
  221451612765114622404,
  521212285469854564554,
  221451612765114622404,
  521212329450317578314,
  516599517944467972164,
  521212329450317578314,
  516599517944467972164,
  373674396855126761544,
  223792912827449368644,
  373674396855126761544,
  223792912827449368644,
  523517574325207859274,
  221451612902521593924,
  523517574325207859274,
  221451612902521593924,
  521212329450317054154,
  516599517944467448004,
  521212329450317054154,
  516599517944467448004,
  373674396855124140744,
  76218960237772955844,
  373674396855124140744,
  76218960237772955844,
  523517574325205238474,
  73877660312845181124,
  523517574325205238474,
  73877660312845181124,
  373674396852977173194,
  73913680178512159044,
  373674396852977173194,
  73913680178512159044,
  373674396852979269834,
  221487632768188047684,
  373674396852979269834,
  221487632768188047684]
def residQf2_mat_cert_5 : List Nat := [523517574316617933384,
  223684835367743938884,
  523517574316617409224,
  76146911575086489924,
  521212285469852467914,
  73877660175438733764,
  521212285469852467914,
  73877660175438733764,
  375979641730014421704,
  76146902781140427204,
  375979641730014945864,
  223684826573797876164,
  521212285469854564554,
  221451612765114622404,
  521212285469854564554,
  221451612765114622404,
  373674396726409830474,
  369062148307818389574,
  373674396726409830474,
  369062148307818389574,
  373674396717855547464,
  226098755836663046214,
  373674396717855547464,
  226098755836663046214,
  523517574187903098954,
  221452175852474998854,
  523517574187903098954,
  221452175852474998854,
  373674396726409306314,
  369062148307817865414,
  373674396726409306314,
  369062148307817865414,
  373674396717852926664,
  78524803246986633414,
  373674396717852926664,
  78524803246986633414,
  523517574187900478154,
  73878223262798586054,
  523517574187900478154,
  73878223262798586054,
  373674396715672412874,
  73914243128465563974,
  373674396715672412874,
  73914243128465563974,
  373674396715674509514,
  221488195718141452614,
  373674396715674509514,
  221488195718141452614,
  523517574179346719304,
  225990678376957616454,
  523517574179346195144,
  78452754584300167494,
  521212285332547707594,
  73878223125392138694,
  521212285332547707594,
  73878223125392138694,
  375979641592743207624,
  78452745790354104774,
  375979641592743731784,
  225990669583011553734,
  521212285332549804234,
  221452175715068027334,
  521212285332549804234,
  221452175715068027334,
  373674396726409830474,
  369062148307818389574,
  373674396726409830474,
  369062148307818389574,
  373674396717855547464,
  226098755836663046214,
  373674396717855547464,
  226098755836663046214,
  523517574187903098954,
  221452175852474998854,
  523517574187903098954,
  221452175852474998854,
  373674396726409306314,
  369062148307817865414,
  373674396726409306314,
  369062148307817865414,
  373674396717852926664,
  78524803246986633414,
  373674396717852926664,
  78524803246986633414,
  523517574187900478154,
  73878223262798586054,
  523517574187900478154,
  73878223262798586054,
  373674396715672412874,
  73914243128465563974,
  373674396715672412874,
  73914243128465563974,
  373674396715674509514,
  221488195718141452614,
  373674396715674509514,
  221488195718141452614,
  523517574179346719304,
  225990678376957616454,
  523517574179346195144,
  78452754584300167494,
  521212285332547707594,
  73878223125392138694,
  521212285332547707594,
  73878223125392138694,
  375979641592743207624,
  78452745790354104774,
  375979641592743731784,
  225990669583011553734,
  521212285332549804234,
  221452175715068027334,
  521212285332549804234,
  221452175715068027334,
  373674396726309191754,
  369061585357864976454,
  373674396726309191754,
  369061585357864976454,
  373674396717721362504,
  223792912827449360454,
  373674396717721362504,
  223792912827449360454,
  523517574187802460234,
  221451612902521585734,
  523517574187802460234,
  221451612902521585734,
  373674396726308667594,
  369061585357864452294,
  373674396726308667594,
  369061585357864452294,
  373674396717718741704,
  76218960237772947654,
  373674396717718741704,
  76218960237772947654,
  523517574187799839434,
  73877660312845172934,
  523517574187799839434,
  73877660312845172934,
  373674396715571774154,
  73913680178512150854,
  373674396715571774154,
  73913680178512150854,
  373674396715573870794,
  221487632768188039494,
  373674396715573870794,
  221487632768188039494,
  523517574179212534344,
  223684835367743930694,
  523517574179212010184,
  76146911575086481734,
  521212285332447068874,
  73877660175438725574,
  521212285332447068874,
  73877660175438725574,
  375979641592609022664,
  76146902781140419014,
  375979641592609546824,
  223684826573797867974,
  521212285332449165514,
  221451612765114614214,
  521212285332449165514,
  221451612765114614214,
  373674396726309191754,
  369061585357864976454,
  373674396726309191754,
  369061585357864976454,
  373674396717721362504,
  223792912827449360454,
  373674396717721362504,
  223792912827449360454,
  523517574187802460234,
  221451612902521585734,
  523517574187802460234,
  221451612902521585734,
  373674396726308667594,
  369061585357864452294,
  373674396726308667594,
  369061585357864452294,
  373674396717718741704,
  76218960237772947654,
  373674396717718741704,
  76218960237772947654,
  523517574187799839434,
  73877660312845172934,
  523517574187799839434,
  73877660312845172934,
  373674396715571774154,
  73913680178512150854,
  373674396715571774154,
  73913680178512150854,
  373674396715573870794,
  221487632768188039494,
  373674396715573870794,
  221487632768188039494,
  523517574179212534344,
  223684835367743930694,
  523517574179212010184,
  76146911575086481734,
  521212285332447068874,
  73877660175438725574,
  521212285332447068874,
  73877660175438725574,
  375979641592609022664,
  76146902781140419014,
  375979641592609546824,
  223684826573797867974,
  521212285332449165514,
  221451612765114614214,
  521212285332449165514,
  221451612765114614214,
  521212329313012850754,
  518905923903635062854,
  521212329313012850754,
  518905923903635062854,
  373674396717822025794,
  223794038727356186694,
  373674396717822025794,
  223794038727356186694,
  523517574187903131714,
  223758018861688684614,
  523517574187903131714,
  223758018861688684614,
  521212329313012326594,
  518905923903634538694,
  521212329313012326594,
  518905923903634538694,
  373674396717819404994,
  76220086137679773894,
  373674396717819404994,
  76220086137679773894,
  523517574187900510914,
  76184066272012271814,
  523517574187900510914,
  76184066272012271814,
  373674396715672445634,
  76220086137679249734,
  373674396715672445634,
  76220086137679249734,
  373674396715674542274,
  223794038727355138374,
  373674396715674542274,
  223794038727355138374,
  523517574179313197634,
  223685961267650756934,
  523517574179312673474,
  76148037474993307974,
  521212285332547740354,
  76184066134605824454,
  521212285332547740354,
  76184066134605824454,
  375979641592709685954,
  76148028681047245254,
  375979641592710210114,
  223685952473704694214,
  521212285332549836994,
  223758018724281713094,
  521212285332549836994,
  223758018724281713094,
  521212329313046396994,
  521211203962895335494,
  521212329313046396994,
  521211203962895335494,
  373674396717855572034,
  226099318786616459334,
  373674396717855572034,
  226099318786616459334,
  523517574187936677954,
  226063298920948957254,
  523517574187936677954,
  226063298920948957254,
  521212329313045872834,
  521211203962894811334,
  521212329313045872834,
  521211203962894811334,
  373674396717852951234,
  78525366196940046534,
  373674396717852951234,
  78525366196940046534,
  523517574187934057154,
  78489346331272544454,
  523517574187934057154,
  78489346331272544454,
  373674396715705991874,
  78525366196939522374,
  373674396715705991874,
  78525366196939522374,
  373674396715708088514,
  226099318786615411014,
  373674396715708088514,
  226099318786615411014,
  523517574179346743874,
  225991241326911029574,
  523517574179346219714,
  78453317534253580614,
  521212285332581286594,
  78489346193866097094,
  521212285332581286594,
  78489346193866097094,
  375979641592743232194,
  78453308740307517894,
  375979641592743756354,
  225991232532964966854,
  521212285332583383234,
  226063298783541985734,
  521212285332583383234,
  226063298783541985734,
  375979677472864870464,
  375979677472864870464,
  375979677472864870464,
  375979677472864870464,
  375979677464277033024,
  228405724883188981824,
  375979677464277033024,
  228405724883188981824,
  523517574875097866304,
  228369704880116080704,
  523517574875097866304,
  228369704880116080704,
  375979677472864346304,
  375979677472864346304,
  375979677472864346304,
  375979677472864346304,
  375979677464274412224,
  80831772293512569024,
  375979677464274412224,
  80831772293512569024,
  523517574875095245504,
  80795752290439667904,
  523517574875095245504,
  80795752290439667904,
  375979677462127452864,
  80831772293512044864,
  375979677462127452864,
  80831772293512044864,
  375979677462129549504,
  228405724883187933504,
  375979677462129549504,
  228405724883187933504,
  523517574866507932224,
  228297647286078153024,
  523517574866507408064,
  80759723493420704064,
  523517566079002747584,
  80795752290438619584,
  523517566079002747584,
  80795752290438619584,
  375979642279904420544,
  80759714699474641344,
  375979642279904944704,
  228297638492132090304,
  523517566079004844224,
  228369704880114508224,
  523517566079004844224,
  228369704880114508224,
  375979677335459471424,
  373674397413604597824,
  375979677335459471424,
  373674397413604597824,
  375979677326871633984,
  226100444823928709184,
  375979677326871633984,
  226100444823928709184,
  523517574737692467264,
  226064424820855808064,
  523517574737692467264,
  226064424820855808064,
  375979677335458947264,
  373674397413604073664,
  375979677335458947264,
  373674397413604073664,
  375979677326869013184,
  78526492234252296384,
  375979677326869013184,
  78526492234252296384,
  523517574737689846464,
  78490472231179395264,
  523517574737689846464,
  78490472231179395264,
  375979677324722053824,
  78526492234251772224,
  375979677324722053824,
  78526492234251772224,
  375979677324724150464,
  226100444823927660864,
  375979677324724150464,
  226100444823927660864,
  523517574729102533184,
  225992367226817880384,
  523517574729102009024,
  78454443434160431424,
  523517565941597348544,
  78490472231178346944,
  523517565941597348544,
  78490472231178346944,
  375979642142499021504,
  78454434640214368704,
  375979642142499545664,
  225992358432871817664,
  523517565941599445184,
  226064424820854235584,
  523517565941599445184,
  226064424820854235584]
def residQf2_mat_cert_6 : List Nat := [523517610059367219264,
  523517047109514444864,
  523517610059367219264,
  523517047109514444864,
  375979677326737449024,
  223794601814715023424,
  375979677326737449024,
  223794601814715023424,
  523517574874997227584,
  228369141930162667584,
  523517574874997227584,
  228369141930162667584,
  523517610059366695104,
  523517047109513920704,
  523517610059366695104,
  523517047109513920704,
  375979677326734828224,
  76220649225038610624,
  375979677326734828224,
  76220649225038610624,
  523517574874994606784,
  80795189340486254784,
  523517574874994606784,
  80795189340486254784,
  375979677324587868864,
  76220649225038086464,
  375979677324587868864,
  76220649225038086464,
  375979677324589965504,
  223794601814713975104,
  375979677324589965504,
  223794601814713975104,
  523517574866407293504,
  228297084336124739904,
  523517574866406769344,
  80759160543467290944,
  523517566078902108864,
  80795189340485206464,
  523517566078902108864,
  80795189340485206464,
  375979642142364836544,
  76148591631000682944,
  375979642142365360704,
  223686515423658131904,
  523517566078904205504,
  228369141930161095104,
  523517566078904205504,
  228369141930161095104,
  523517610059367219264,
  523517047109514444864,
  523517610059367219264,
  523517047109514444864,
  375979677326737449024,
  223794601814715023424,
  375979677326737449024,
  223794601814715023424,
  523517574874997227584,
  228369141930162667584,
  523517574874997227584,
  228369141930162667584,
  523517610059366695104,
  523517047109513920704,
  523517610059366695104,
  523517047109513920704,
  375979677326734828224,
  76220649225038610624,
  375979677326734828224,
  76220649225038610624,
  523517574874994606784,
  80795189340486254784,
  523517574874994606784,
  80795189340486254784,
  375979677324587868864,
  76220649225038086464,
  375979677324587868864,
  76220649225038086464,
  375979677324589965504,
  223794601814713975104,
  375979677324589965504,
  223794601814713975104,
  523517574866407293504,
  228297084336124739904,
  523517574866406769344,
  80759160543467290944,
  523517566078902108864,
  80795189340485206464,
  523517566078902108864,
  80795189340485206464,
  375979642142364836544,
  76148591631000682944,
  375979642142365360704,
  223686515423658131904,
  523517566078904205504,
  228369141930161095104,
  523517566078904205504,
  228369141930161095104,
  523517609509745623104,
  521211204100300759104,
  523517609509745623104,
  521211204100300759104,
  375979676914521251904,
  223794038864761610304,
  375979676914521251904,
  223794038864761610304,
  523517574325375631424,
  226063298920948981824,
  523517574325375631424,
  226063298920948981824,
  523517609509745098944,
  521211204100300234944,
  523517609509745098944,
  521211204100300234944,
  375979676914518631104,
  76220086275085197504,
  375979676914518631104,
  76220086275085197504,
  523517574325373010624,
  78489346331272569024,
  523517574325373010624,
  78489346331272569024,
  375979676912371671744,
  76220086275084673344,
  375979676912371671744,
  76220086275084673344,
  375979676912373768384,
  223794038864760561984,
  375979676912373768384,
  223794038864760561984,
  523517574316785697344,
  225991241326911054144,
  523517574316785173184,
  78453317534253605184,
  523517565529280512704,
  78489346331271520704,
  523517565529280512704,
  78489346331271520704,
  375979641730148639424,
  76148028681047269824,
  375979641730149163584,
  223685952473704718784,
  523517565529282609344,
  226063298920947409344,
  523517565529282609344,
  226063298920947409344,
  523517609509745623104,
  521211204100300759104,
  523517609509745623104,
  521211204100300759104,
  375979676914521251904,
  223794038864761610304,
  375979676914521251904,
  223794038864761610304,
  523517574325375631424,
  226063298920948981824,
  523517574325375631424,
  226063298920948981824,
  523517609509745098944,
  521211204100300234944,
  523517609509745098944,
  521211204100300234944,
  375979676914518631104,
  76220086275085197504,
  375979676914518631104,
  76220086275085197504,
  523517574325373010624,
  78489346331272569024,
  523517574325373010624,
  78489346331272569024,
  375979676912371671744,
  76220086275084673344,
  375979676912371671744,
  76220086275084673344,
  375979676912373768384,
  223794038864760561984,
  375979676912373768384,
  223794038864760561984,
  523517574316785697344,
  225991241326911054144,
  523517574316785173184,
  78453317534253605184,
  523517565529280512704,
  78489346331271520704,
  523517565529280512704,
  78489346331271520704,
  375979641730148639424,
  76148028681047269824,
  375979641730149163584,
  223685952473704718784,
  523517565529282609344,
  226063298920947409344,
  523517565529282609344,
  226063298920947409344,
  375979677472864862274,
  375979677472864862274,
  375979677472864862274,
  375979677472864862274,
  375979677464277024834,
  228405724883188973634,
  375979677464277024834,
  228405724883188973634,
  523517574875097858114,
  228369704880116072514,
  523517574875097858114,
  228369704880116072514,
  375979677472864338114,
  375979677472864338114,
  375979677472864338114,
  375979677472864338114,
  375979677464274404034,
  80831772293512560834,
  375979677464274404034,
  80831772293512560834,
  523517574875095237314,
  80795752290439659714,
  523517574875095237314,
  80795752290439659714,
  375979677462127444674,
  80831772293512036674,
  375979677462127444674,
  80831772293512036674,
  375979677462129541314,
  228405724883187925314,
  375979677462129541314,
  228405724883187925314,
  523517574866507924034,
  228297647286078144834,
  523517574866507399874,
  80759723493420695874,
  523517566079002739394,
  80795752290438611394,
  523517566079002739394,
  80795752290438611394,
  375979642279904412354,
  80759714699474633154,
  375979642279904936514,
  228297638492132082114,
  523517566079004836034,
  228369704880114500034,
  523517566079004836034,
  228369704880114500034,
  375979677335459463234,
  373674397413604589634,
  375979677335459463234,
  373674397413604589634,
  375979677326871625794,
  226100444823928700994,
  375979677326871625794,
  226100444823928700994,
  523517574737692459074,
  226064424820855799874,
  523517574737692459074,
  226064424820855799874,
  375979677335458939074,
  373674397413604065474,
  375979677335458939074,
  373674397413604065474,
  375979677326869004994,
  78526492234252288194,
  375979677326869004994,
  78526492234252288194,
  523517574737689838274,
  78490472231179387074,
  523517574737689838274,
  78490472231179387074,
  375979677324722045634,
  78526492234251764034,
  375979677324722045634,
  78526492234251764034,
  375979677324724142274,
  226100444823927652674,
  375979677324724142274,
  226100444823927652674,
  523517574729102524994,
  225992367226817872194,
  523517574729102000834,
  78454443434160423234,
  523517565941597340354,
  78490472231178338754,
  523517565941597340354,
  78490472231178338754,
  375979642142499013314,
  78454434640214360514,
  375979642142499537474,
  225992358432871809474,
  523517565941599436994,
  226064424820854227394,
  523517565941599436994,
  226064424820854227394,
  523517610059367186504,
  523516484159561023554,
  523517610059367186504,
  523516484159561023554,
  375979677326737408074,
  221488758805501329474,
  375979677326737408074,
  221488758805501329474,
  523517574874997194824,
  228368578980209246274,
  523517574874997194824,
  228368578980209246274,
  523517610059366662344,
  523516484159560499394,
  523517610059366662344,
  523516484159560499394,
  375979677326734787274,
  73914806215824916674,
  375979677326734787274,
  73914806215824916674,
  523517574874994574024,
  80794626390532833474,
  523517574874994574024,
  80794626390532833474,
  375979677324587827914,
  73914806215824392514,
  375979677324587827914,
  73914806215824392514,
  375979677324589924554,
  221488758805500281154,
  375979677324589924554,
  221488758805500281154,
  523517574866407260744,
  228296521386171318594,
  523517574866406736584,
  80758597593513869634,
  523517566078902076104,
  80794626390531785154,
  523517566078902076104,
  80794626390531785154,
  375979642142364795594,
  73842748621786988994,
  375979642142365319754,
  221380672414444437954,
  523517566078904172744,
  228368578980207673794,
  523517566078904172744,
  228368578980207673794,
  523517610059367186504,
  523516484159561023554,
  523517610059367186504,
  523516484159561023554,
  375979677326737408074,
  221488758805501329474,
  375979677326737408074,
  221488758805501329474,
  523517574874997194824,
  228368578980209246274,
  523517574874997194824,
  228368578980209246274,
  523517610059366662344,
  523516484159560499394,
  523517610059366662344,
  523516484159560499394,
  375979677326734787274,
  73914806215824916674,
  375979677326734787274,
  73914806215824916674,
  523517574874994574024,
  80794626390532833474,
  523517574874994574024,
  80794626390532833474,
  375979677324587827914,
  73914806215824392514,
  375979677324587827914,
  73914806215824392514,
  375979677324589924554,
  221488758805500281154,
  375979677324589924554,
  221488758805500281154,
  523517574866407260744,
  228296521386171318594,
  523517574866406736584,
  80758597593513869634,
  523517566078902076104,
  80794626390531785154,
  523517566078902076104,
  80794626390531785154,
  375979642142364795594,
  73842748621786988994,
  375979642142365319754,
  221380672414444437954,
  523517566078904172744,
  228368578980207673794,
  523517566078904172744,
  228368578980207673794,
  523517609509745590344,
  521210641150347337794,
  523517609509745590344,
  521210641150347337794,
  375979676914521210954,
  221488195855547916354,
  375979676914521210954,
  221488195855547916354,
  523517574325375598664,
  226062735970995560514,
  523517574325375598664,
  226062735970995560514,
  523517609509745066184,
  521210641150346813634,
  523517609509745066184,
  521210641150346813634]
def residQf2_mat_cert_7 : List Nat := [375979676914518590154,
  73914243265871503554,
  375979676914518590154,
  73914243265871503554,
  523517574325372977864,
  78488783381319147714,
  523517574325372977864,
  78488783381319147714,
  375979676912371630794,
  73914243265870979394,
  375979676912371630794,
  73914243265870979394,
  375979676912373727434,
  221488195855546868034,
  375979676912373727434,
  221488195855546868034,
  523517574316785664584,
  225990678376957632834,
  523517574316785140424,
  78452754584300183874,
  523517565529280479944,
  78488783381318099394,
  523517565529280479944,
  78488783381318099394,
  375979641730148598474,
  73842185671833575874,
  375979641730149122634,
  221380109464491024834,
  523517565529282576584,
  226062735970993988034,
  523517565529282576584,
  226062735970993988034,
  523517609509745590344,
  521210641150347337794,
  523517609509745590344,
  521210641150347337794,
  375979676914521210954,
  221488195855547916354,
  375979676914521210954,
  221488195855547916354,
  523517574325375598664,
  226062735970995560514,
  523517574325375598664,
  226062735970995560514,
  523517609509745066184,
  521210641150346813634,
  523517609509745066184,
  521210641150346813634,
  375979676914518590154,
  73914243265871503554,
  375979676914518590154,
  73914243265871503554,
  523517574325372977864,
  78488783381319147714,
  523517574325372977864,
  78488783381319147714,
  375979676912371630794,
  73914243265870979394,
  375979676912371630794,
  73914243265870979394,
  375979676912373727434,
  221488195855546868034,
  375979676912373727434,
  221488195855546868034,
  523517574316785664584,
  225990678376957632834,
  523517574316785140424,
  78452754584300183874,
  523517565529280479944,
  78488783381318099394,
  523517565529280479944,
  78488783381318099394,
  375979641730148598474,
  73842185671833575874,
  375979641730149122634,
  221380109464491024834,
  523517565529282576584,
  226062735970993988034,
  523517565529282576584,
  226062735970993988034,
  375979677335291699274,
  369062711395177209924,
  375979677335291699274,
  369062711395177209924,
  375979677326703861834,
  221488758805501321284,
  375979677326703861834,
  221488758805501321284,
  523517574874963648584,
  228368578980209238084,
  523517574874963648584,
  228368578980209238084,
  375979677335291175114,
  369062711395176685764,
  375979677335291175114,
  369062711395176685764,
  375979677326701241034,
  73914806215824908484,
  375979677326701241034,
  73914806215824908484,
  523517574874961027784,
  80794626390532825284,
  523517574874961027784,
  80794626390532825284,
  375979677324554281674,
  73914806215824384324,
  375979677324554281674,
  73914806215824384324,
  375979677324556378314,
  221488758805500272964,
  375979677324556378314,
  221488758805500272964,
  523517574866373714504,
  228296521386171310404,
  523517574866373190344,
  80758597593513861444,
  523517566078868529864,
  80794626390531776964,
  523517566078868529864,
  80794626390531776964,
  375979642142331249354,
  73842748621786980804,
  375979642142331773514,
  221380672414444429764,
  523517566078870626504,
  228368578980207665604,
  523517566078870626504,
  228368578980207665604,
  375979677335291699274,
  369062711395177209924,
  375979677335291699274,
  369062711395177209924,
  375979677326703861834,
  221488758805501321284,
  375979677326703861834,
  221488758805501321284,
  523517574874963648584,
  228368578980209238084,
  523517574874963648584,
  228368578980209238084,
  375979677335291175114,
  369062711395176685764,
  375979677335291175114,
  369062711395176685764,
  375979677326701241034,
  73914806215824908484,
  375979677326701241034,
  73914806215824908484,
  523517574874961027784,
  80794626390532825284,
  523517574874961027784,
  80794626390532825284,
  375979677324554281674,
  73914806215824384324,
  375979677324554281674,
  73914806215824384324,
  375979677324556378314,
  221488758805500272964,
  375979677324556378314,
  221488758805500272964,
  523517574866373714504,
  228296521386171310404,
  523517574866373190344,
  80758597593513861444,
  523517566078868529864,
  80794626390531776964,
  523517566078868529864,
  80794626390531776964,
  375979642142331249354,
  73842748621786980804,
  375979642142331773514,
  221380672414444429764,
  523517566078870626504,
  228368578980207665604,
  523517566078870626504,
  228368578980207665604,
  375979677335291732034,
  371368554404390895684,
  375979677335291732034,
  371368554404390895684,
  375979677326703894594,
  223794601814715007044,
  375979677326703894594,
  223794601814715007044,
  523517574874963673154,
  228369141930162651204,
  523517574874963673154,
  228369141930162651204,
  375979677335291207874,
  371368554404390371524,
  375979677335291207874,
  371368554404390371524,
  375979677326701273794,
  76220649225038594244,
  375979677326701273794,
  76220649225038594244,
  523517574874961052354,
  80795189340486238404,
  523517574874961052354,
  80795189340486238404,
  375979677324554314434,
  76220649225038070084,
  375979677324554314434,
  76220649225038070084,
  375979677324556411074,
  223794601814713958724,
  375979677324556411074,
  223794601814713958724,
  523517574866373739074,
  228297084336124723524,
  523517574866373214914,
  80759160543467274564,
  523517566078868554434,
  80795189340485190084,
  523517566078868554434,
  80795189340485190084,
  375979642142331282114,
  76148591631000666564,
  375979642142331806274,
  223686515423658115524,
  523517566078870651074,
  228369141930161078724,
  523517566078870651074,
  228369141930161078724,
  375979677335291732034,
  371368554404390895684,
  375979677335291732034,
  371368554404390895684,
  375979677326703894594,
  223794601814715007044,
  375979677326703894594,
  223794601814715007044,
  523517574874963673154,
  228369141930162651204,
  523517574874963673154,
  228369141930162651204,
  375979677335291207874,
  371368554404390371524,
  375979677335291207874,
  371368554404390371524,
  375979677326701273794,
  76220649225038594244,
  375979677326701273794,
  76220649225038594244,
  523517574874961052354,
  80795189340486238404,
  523517574874961052354,
  80795189340486238404,
  375979677324554314434,
  76220649225038070084,
  375979677324554314434,
  76220649225038070084,
  375979677324556411074,
  223794601814713958724,
  375979677324556411074,
  223794601814713958724,
  523517574866373739074,
  228297084336124723524,
  523517574866373214914,
  80759160543467274564,
  523517566078868554434,
  80795189340485190084,
  523517566078868554434,
  80795189340485190084,
  375979642142331282114,
  76148591631000666564,
  375979642142331806274,
  223686515423658115524,
  523517566078870651074,
  228369141930161078724,
  523517566078870651074,
  228369141930161078724,
  523517609509577859144,
  518904798141133643844,
  523517609509577859144,
  518904798141133643844,
  375979676914387034184,
  223792912964854767684,
  375979676914387034184,
  223792912964854767684,
  523517574325207867464,
  223756892961781866564,
  523517574325207867464,
  223756892961781866564,
  523517609509577334984,
  518904798141133119684,
  523517609509577334984,
  518904798141133119684,
  375979676914384413384,
  76218960375178354884,
  375979676914384413384,
  76218960375178354884,
  523517574325205246664,
  76182940372105453764,
  523517574325205246664,
  76182940372105453764,
  375979676912237454024,
  76218960375177830724,
  375979676912237454024,
  76218960375177830724,
  375979676912239550664,
  223792912964853719364,
  375979676912239550664,
  223792912964853719364,
  523517574316617933384,
  223684835367743938884,
  523517574316617409224,
  76146911575086489924,
  523517565529112748744,
  76182940372104405444,
  523517565529112748744,
  76182940372104405444,
  375979641730014421704,
  76146902781140427204,
  375979641730014945864,
  223684826573797876164,
  523517565529114845384,
  223756892961780294084,
  523517565529114845384,
  223756892961780294084,
  523517609509577850954,
  516599518081873371204,
  523517609509577850954,
  516599518081873371204,
  375979676914387025994,
  221487632905594495044,
  375979676914387025994,
  221487632905594495044,
  523517574325207859274,
  221451612902521593924,
  523517574325207859274,
  221451612902521593924,
  523517609509577326794,
  516599518081872847044,
  523517609509577326794,
  516599518081872847044,
  375979676914384405194,
  73913680315918082244,
  375979676914384405194,
  73913680315918082244,
  523517574325205238474,
  73877660312845181124,
  523517574325205238474,
  73877660312845181124,
  375979676912237445834,
  73913680315917558084,
  375979676912237445834,
  73913680315917558084,
  375979676912239542474,
  221487632905593446724,
  375979676912239542474,
  221487632905593446724,
  523517574316617925194,
  221379555308483666244,
  523517574316617401034,
  73841631515826217284,
  523517565529112740554,
  73877660312844132804,
  523517565529112740554,
  73877660312844132804,
  375979641730014413514,
  73841622721880154564,
  375979641730014937674,
  221379546514537603524,
  523517565529114837194,
  221451612902520021444,
  523517565529114837194,
  221451612902520021444,
  375979676785670103114,
  369062148445223788614,
  375979676785670103114,
  369062148445223788614,
  375979676777082265674,
  221488195855547899974,
  375979676777082265674,
  221488195855547899974,
  523517574187936653384,
  226062735970995544134,
  523517574187936653384,
  226062735970995544134,
  375979676785669578954,
  369062148445223264454,
  375979676785669578954,
  369062148445223264454,
  375979676777079644874,
  73914243265871487174,
  375979676777079644874,
  73914243265871487174,
  523517574187934032584,
  78488783381319131334,
  523517574187934032584,
  78488783381319131334,
  375979676774932685514,
  73914243265870963014,
  375979676774932685514,
  73914243265870963014,
  375979676774934782154,
  221488195855546851654,
  375979676774934782154,
  221488195855546851654]
def residQf2_mat_cert_8 : List Nat := [523517574179346719304,
  225990678376957616454,
  523517574179346195144,
  78452754584300167494,
  523517565391841534664,
  78488783381318083014,
  523517565391841534664,
  78488783381318083014,
  375979641592709653194,
  73842185671833559494,
  375979641592710177354,
  221380109464491008454,
  523517565391843631304,
  226062735970993971654,
  523517565391843631304,
  226062735970993971654,
  375979676785670103114,
  369062148445223788614,
  375979676785670103114,
  369062148445223788614,
  375979676777082265674,
  221488195855547899974,
  375979676777082265674,
  221488195855547899974,
  523517574187936653384,
  226062735970995544134,
  523517574187936653384,
  226062735970995544134,
  375979676785669578954,
  369062148445223264454,
  375979676785669578954,
  369062148445223264454,
  375979676777079644874,
  73914243265871487174,
  375979676777079644874,
  73914243265871487174,
  523517574187934032584,
  78488783381319131334,
  523517574187934032584,
  78488783381319131334,
  375979676774932685514,
  73914243265870963014,
  375979676774932685514,
  73914243265870963014,
  375979676774934782154,
  221488195855546851654,
  375979676774934782154,
  221488195855546851654,
  523517574179346719304,
  225990678376957616454,
  523517574179346195144,
  78452754584300167494,
  523517565391841534664,
  78488783381318083014,
  523517565391841534664,
  78488783381318083014,
  375979641592709653194,
  73842185671833559494,
  375979641592710177354,
  221380109464491008454,
  523517565391843631304,
  226062735970993971654,
  523517565391843631304,
  226062735970993971654,
  523517609372172451914,
  516599518081873363014,
  523517609372172451914,
  516599518081873363014,
  375979676776981626954,
  221487632905594486854,
  375979676776981626954,
  221487632905594486854,
  523517574187802460234,
  221451612902521585734,
  523517574187802460234,
  221451612902521585734,
  523517609372171927754,
  516599518081872838854,
  523517609372171927754,
  516599518081872838854,
  375979676776979006154,
  73913680315918074054,
  375979676776979006154,
  73913680315918074054,
  523517574187799839434,
  73877660312845172934,
  523517574187799839434,
  73877660312845172934,
  375979676774832046794,
  73913680315917549894,
  375979676774832046794,
  73913680315917549894,
  375979676774834143434,
  221487632905593438534,
  375979676774834143434,
  221487632905593438534,
  523517574179212526154,
  221379555308483658054,
  523517574179212001994,
  73841631515826209094,
  523517565391707341514,
  73877660312844124614,
  523517565391707341514,
  73877660312844124614,
  375979641592609014474,
  73841622721880146374,
  375979641592609538634,
  221379546514537595334,
  523517565391709438154,
  221451612902520013254,
  523517565391709438154,
  221451612902520013254,
  523517609372172460104,
  518904798141133635654,
  523517609372172460104,
  518904798141133635654,
  375979676776981635144,
  223792912964854759494,
  375979676776981635144,
  223792912964854759494,
  523517574187802468424,
  223756892961781858374,
  523517574187802468424,
  223756892961781858374,
  523517609372171935944,
  518904798141133111494,
  523517609372171935944,
  518904798141133111494,
  375979676776979014344,
  76218960375178346694,
  375979676776979014344,
  76218960375178346694,
  523517574187799847624,
  76182940372105445574,
  523517574187799847624,
  76182940372105445574,
  375979676774832054984,
  76218960375177822534,
  375979676774832054984,
  76218960375177822534,
  375979676774834151624,
  223792912964853711174,
  375979676774834151624,
  223792912964853711174,
  523517574179212534344,
  223684835367743930694,
  523517574179212010184,
  76146911575086481734,
  523517565391707349704,
  76182940372104397254,
  523517565391707349704,
  76182940372104397254,
  375979641592609022664,
  76146902781140419014,
  375979641592609546824,
  223684826573797867974,
  523517565391709446344,
  223756892961780285894,
  523517565391709446344,
  223756892961780285894,
  375979676785670135874,
  371367991454437474374,
  375979676785670135874,
  371367991454437474374,
  375979676777082298434,
  223794038864761585734,
  375979676777082298434,
  223794038864761585734,
  523517574187936677954,
  226063298920948957254,
  523517574187936677954,
  226063298920948957254,
  375979676785669611714,
  371367991454436950214,
  375979676785669611714,
  371367991454436950214,
  375979676777079677634,
  76220086275085172934,
  375979676777079677634,
  76220086275085172934,
  523517574187934057154,
  78489346331272544454,
  523517574187934057154,
  78489346331272544454,
  375979676774932718274,
  76220086275084648774,
  375979676774932718274,
  76220086275084648774,
  375979676774934814914,
  223794038864760537414,
  375979676774934814914,
  223794038864760537414,
  523517574179346743874,
  225991241326911029574,
  523517574179346219714,
  78453317534253580614,
  523517565391841559234,
  78489346331271496134,
  523517565391841559234,
  78489346331271496134,
  375979641592709685954,
  76148028681047245254,
  375979641592710210114,
  223685952473704694214,
  523517565391843655874,
  226063298920947384774,
  523517565391843655874,
  226063298920947384774,
  375979676785670135874,
  371367991454437474374,
  375979676785670135874,
  371367991454437474374,
  375979676777082298434,
  223794038864761585734,
  375979676777082298434,
  223794038864761585734,
  523517574187936677954,
  226063298920948957254,
  523517574187936677954,
  226063298920948957254,
  375979676785669611714,
  371367991454436950214,
  375979676785669611714,
  371367991454436950214,
  375979676777079677634,
  76220086275085172934,
  375979676777079677634,
  76220086275085172934,
  523517574187934057154,
  78489346331272544454,
  523517574187934057154,
  78489346331272544454,
  375979676774932718274,
  76220086275084648774,
  375979676774932718274,
  76220086275084648774,
  375979676774934814914,
  223794038864760537414,
  375979676774934814914,
  223794038864760537414,
  523517574179346743874,
  225991241326911029574,
  523517574179346219714,
  78453317534253580614,
  523517565391841559234,
  78489346331271496134,
  523517565391841559234,
  78489346331271496134,
  375979641592709685954,
  76148028681047245254,
  375979641592710210114,
  223685952473704694214,
  523517565391843655874,
  226063298920947384774,
  523517565391843655874,
  226063298920947384774,
  523517601265522319424,
  375979686266810409024,
  523517601265522311234,
  375979686266810400834,
  523517601265522319424,
  375979686266810409024,
  523517601265522311234,
  375979686266810400834,
  523517601265522319424,
  375979686266810409024,
  523517601265522311234,
  375979686266810400834,
  523517601128116920384,
  373674406207550136384,
  523517601128116912194,
  373674406207550128194,
  523517601128116920384,
  373674406207550136384,
  523517601128116912194,
  373674406207550128194,
  523517601128116920384,
  373674406207550136384,
  523517601128116912194,
  373674406207550128194,
  523517601128116920384,
  373674406207550136384,
  523517601128116920384,
  373674406207550136384,
  521212330000207061184,
  523517609922061934784,
  523517601128116920384,
  373674406207550136384,
  523517601128116912194,
  373674406207550128194,
  523517601128116920384,
  373674406207550136384,
  523517601128116920384,
  373674406207550136384,
  523517601128116912194,
  373674406207550128194,
  523517601128116396224,
  373674406207549612224,
  523517601128116388034,
  373674406207549604034,
  523517601128116920384,
  373674406207550136384,
  523517601128116396224,
  373674406207549612224,
  375979686266810409024,
  523517601265522319424,
  375979686266810400834,
  523517601265522311234,
  375979686129405009984,
  521212321206262046784,
  523517601128116912194,
  373674406207550128194,
  523517601265522319424,
  375979686266810409024,
  523517601265522311234,
  375979686266810400834,
  523517601265521795264,
  375979686266809884864,
  523517601265521787074,
  375979686266809876674,
  523517601128116920384,
  373674406207550136384,
  523517601128116912194,
  373674406207550128194,
  523517601265521795264,
  375979686266809884864,
  523517601265521787074,
  375979686266809876674,
  521212321206262046784,
  375979686129405009984,
  523517601265522319424,
  375979686266810409024,
  523517601265522311234,
  375979686266810400834,
  521212321206261522624,
  375979686129404485824,
  521212321206261514434,
  375979686129404477634,
  521212321206262046784,
  375979686129405009984,
  521212321206261522624,
  375979686129404485824,
  375979686266810409024,
  523517601265522319424,
  375979686266810400834,
  523517601265522311234,
  373674406207550136384,
  523517601128116920384,
  521212321068856639554,
  373674406070144729154,
  523517601128116920384,
  373674406207550136384,
  523517601128116912194,
  373674406207550128194,
  521212321068856123584,
  373674406070144213184,
  521212321068856115394,
  373674406070144204994,
  523517601128116920384,
  373674406207550136384,
  523517601128116912194,
  373674406207550128194,
  521212321068856123584,
  373674406070144213184,
  521212321068856115394,
  373674406070144204994,
  521212321068856647744,
  373674406070144737344,
  521212321068856639554,
  373674406070144729154,
  521212321068856123584,
  373674406070144213184,
  521212321068856115394,
  373674406070144204994,
  523517601128116920384,
  373674406207550136384,
  521212321206261522624,
  375979686129404485824,
  521212321206262046784,
  375979686129405009984,
  521212321206261522624,
  375979686129404485824,
  521212321068856647744,
  373674406070144737344,
  521212321068856639554,
  373674406070144729154,
  521212321206262046784,
  375979686129405009984,
  521212321206262046784,
  375979686129405009984,
  521212321206262038594,
  375979686129405001794,
  521212321206262046784,
  375979686129405009984,
  521212321206262038594,
  375979686129405001794,
  521212321206262046784,
  375979686129405009984,
  521212321206262038594,
  375979686129405001794]
def residQf2_mat_cert_9 : List Nat := [521212321206262046784,
  375979686129405009984,
  521212321068856647744,
  373674406070144737344,
  521212321068856639554,
  373674406070144729154,
  521212321206262046784,
  375979686129405009984,
  521212321206262038594,
  375979686129405001794,
  521212321068856647744,
  373674406070144737344,
  521212321068856639554,
  373674406070144729154,
  373674406070144737344,
  521212321068856647744,
  373674406070144729154,
  521212321068856639554,
  373674406070144213184,
  521212321068856123584,
  373674406070144204994,
  521212321068856115394,
  521212321206262046784,
  375979686129405009984,
  521212321206262046784,
  375979686129405009984,
  375979677335459471424,
  373674397413604597824,
  375979677335459463234,
  373674397413604589634,
  375979677335459471424,
  373674397413604597824,
  375979686129405009984,
  521212321206262046784,
  375979686129405001794,
  521212321206262038594,
  373674406070144213184,
  521212321068856123584,
  373674406070144204994,
  521212321068856115394]

/-- Check residQf2_mat. C77 -/
theorem residQf2_mat : isZero kinds [aᵥ, bᵥ, iₒ, jₒ] 100000000000000
    (Prog.scale (1/4) (Prog.cap 4 71 (Prog.outs [4, 5, 0, 1, 2, 3, 6, 7] (Prog.part [[23, 39, 39, 39]] (wnT2cubed_toT4)))) ++ (Prog.scale (-1) (residQf2)))
    (residQf2_mat_cert_0 ++ (residQf2_mat_cert_1 ++ (residQf2_mat_cert_2 ++ (residQf2_mat_cert_3 ++ (residQf2_mat_cert_4 ++ (residQf2_mat_cert_5 ++ (residQf2_mat_cert_6 ++ (residQf2_mat_cert_7 ++ (residQf2_mat_cert_8 ++ (residQf2_mat_cert_9)))))))))) = true := by decide +kernel

def optWnT3_mat_cert_0 : List Nat := [237142198758023568227473377297792835283496928595231875152809655565767073466163264,
  12433974480347200,
  237142198758023568227473377297792835283496928595231875152809508027843280808714304,
  12425180534808640,
  237142198758023568227473377297792835283496928595231875152809655565767073466163264,
  12433974480347200,
  237142198758023568227473377297792835283496928595231875152809508027843280808714304,
  12425180534808640,
  237142198758023568227473377297792835283496928595231875152809655565767073466163264,
  12433974480347200,
  237142198758023568227473377297792835283496928595231875152809655565767073466163264,
  12433974480347200,
  237142198758023568227473377297792835283496928595231875152809655565767073466163264,
  12433974480347200,
  237142198758023568227473377297792835283496928595231875152809655565767073466163264,
  12433974480347200,
  177856649068517676170605032973344626462622696446423906364607370248998441783664704,
  2303211814527040,
  177856649068517676170605032973344626462622696446423906364607222711074649126215744,
  2294417868988480,
  177856649068517676170605032973344626462622696446423906364607374859558560304209984,
  2866161734393920,
  177856649068517676170605032973344626462622696446423906364607227321634767646761024,
  2857367788855360,
  177856649068517676170605032973344626462622696446423906364607370248998441783664704,
  2303211814527040,
  177856649068517676170605032973344626462622696446423906364607374859558560304209984,
  2866161734393920,
  177856649068517676170605032973344626462622696446423906364607370248998441783664704,
  2303211814527040,
  177856649068517676170605032973344626462622696446423906364607374859558560304209984,
  2866161734393920,
  177856649068517676170605032973344626462622696446423906364607370248998441783664704,
  2303211814527040,
  177856649068517676170605032973344626462622696446423906364607222711074649126215744,
  2294417868988480,
  177856649068517676170605032973344626462622696446423906364607374859558560304209984,
  2866161734393920,
  177856649068517676170605032973344626462622696446423906364607227321634767646761024,
  2857367788855360,
  177856649068517676170605032973344626462622696446423906364607370248998441783664704,
  2303211814527040,
  177856649068517676170605032973344626462622696446423906364607374859558560304209984,
  2866161734393920,
  177856649068517676170605032973344626462622696446423906364607370248998441783664704,
  2303211814527040,
  177856649068517676170605032973344626462622696446423906364607374859558560304209984,
  2866161734393920,
  177856649068517676170605032973344626462622696446423906364607370248998441783664704,
  2303211814527040,
  177856649068517676170605032973344626462622696446423906364607222711074649126215744,
  2294417868988480,
  177856649068517676170605032973344626462622696446423906364607374859558560304209984,
  2866161734393920,
  177856649068517676170605032973344626462622696446423906364607227321634767646761024,
  2857367788855360,
  177856649068517676170605032973344626462622696446423906364607370248998441783664704,
  2303211814527040,
  177856649068517676170605032973344626462622696446423906364607374859558560304209984,
  2866161734393920,
  177856649068517676170605032973344626462622696446423906364607370248998441783664704,
  2303211814527040,
  177856649068517676170605032973344626462622696446423906364607374859558560304209984,
  2866161734393920,
  118571099379011784113736688648896417641748464297615937576405091848069987881984064,
  2863688437211200,
  118571099379011784113736688648896417641748464297615937576404944310146195224535104,
  2854894491672640,
  118571099379011784113736688648896417641748464297615937576405091848069987881984064,
  2863688437211200,
  118571099379011784113736688648896417641748464297615937576405091848069987881984064,
  2863688437211200,
  177856649068517676170605032973344626462622696446423906364607370248998441783664704,
  2303211814527040,
  177856649068517676170605032973344626462622696446423906364607222711074649126215744,
  2294417868988480,
  177856649068517676170605032973344626462622696446423906364607374859558560304209984,
  2866161734393920,
  177856649068517676170605032973344626462622696446423906364607227321634767646761024,
  2857367788855360,
  177856649068517676170605032973344626462622696446423906364607370248998441783664704,
  2303211814527040,
  177856649068517676170605032973344626462622696446423906364607374859558560304209984,
  2866161734393920,
  177856649068517676170605032973344626462622696446423906364607370248998441783664704,
  2303211814527040,
  177856649068517676170605032973344626462622696446423906364607374859558560304209984,
  2866161734393920,
  118571099379011784113736688648896417641748464297615937576405091848069987881984064,
  2863688437211200,
  118571099379011784113736688648896417641748464297615937576404944310146195224535104,
  2854894491672640,
  118571099379011784113736688648896417641748464297615937576405091848069987881984064,
  2863688437211200,
  118571099379011784113736688648896417641748464297615937576405091848069987881984064,
  2863688437211200,
  971334446112864535459730953411759453321203419526069760625906205392969703586567823424,
  12996924433768512,
  971334446112864535459730953411759453321203419526069760625906205392969703586567823424,
  12996924433768512,
  971334446112864535459730953411759453321203419526069760625906205392969703586567823424,
  12996924433768512,
  971334446112864535459730953411759453321203419526069760625906205392969703586567823424,
  12996924433768512,
  971334446112864535459730953411759453321203419526069760625906205245431779793910374464,
  12988130488229952,
  971334446112864535459730953411759453321203419526069760625906205392969703586567823424,
  12996924433768512,
  971334446112864535459730953411759453321203419526069760625906205245431779793910374464,
  12988130488229952,
  971334446112864535459730953411759453321203419526069760625906205392969703586567823424,
  12996924433768512,
  728500834584648401594798215058819589990902564644552320469429654173301950826609909824,
  2303349253480512,
  728500834584648401594798215058819589990902564644552320469429654177912510945130455104,
  2866299173347392,
  728500834584648401594798215058819589990902564644552320469429654173301950826609909824,
  2303349253480512,
  728500834584648401594798215058819589990902564644552320469429654177912510945130455104,
  2866299173347392,
  728500834584648401594798215058819589990902564644552320469429654025764027033952460864,
  2294555307941952,
  728500834584648401594798215058819589990902564644552320469429654173301950826609909824,
  2303349253480512,
  728500834584648401594798215058819589990902564644552320469429654030374587152473006144,
  2857505227808832,
  728500834584648401594798215058819589990902564644552320469429654177912510945130455104,
  2866299173347392,
  728500834584648401594798215058819589990902564644552320469429654173301950826609909824,
  2303349253480512,
  728500834584648401594798215058819589990902564644552320469429654177912510945130455104,
  2866299173347392,
  728500834584648401594798215058819589990902564644552320469429654173301950826609909824,
  2303349253480512,
  728500834584648401594798215058819589990902564644552320469429654177912510945130455104,
  2866299173347392,
  728500834584648401594798215058819589990902564644552320469429654025764027033952460864,
  2294555307941952,
  728500834584648401594798215058819589990902564644552320469429654173301950826609909824,
  2303349253480512,
  728500834584648401594798215058819589990902564644552320469429654030374587152473006144,
  2857505227808832,
  728500834584648401594798215058819589990902564644552320469429654177912510945130455104,
  2866299173347392,
  728500834584648401594798215058819589990902564644552320469429654173301950826609909824,
  2303349253480512,
  728500834584648401594798215058819589990902564644552320469429654177912510945130455104,
  2866299173347392,
  728500834584648401594798215058819589990902564644552320469429654173301950826609909824,
  2303349253480512,
  728500834584648401594798215058819589990902564644552320469429654177912510945130455104,
  2866299173347392,
  728500834584648401594798215058819589990902564644552320469429654025764027033952460864,
  2294555307941952,
  728500834584648401594798215058819589990902564644552320469429654173301950826609909824,
  2303349253480512,
  728500834584648401594798215058819589990902564644552320469429654030374587152473006144,
  2857505227808832,
  728500834584648401594798215058819589990902564644552320469429654177912510945130455104,
  2866299173347392,
  485667223056432267729865476705879726660601709763034880312953102960550038244432814144,
  2863688470765632,
  485667223056432267729865476705879726660601709763034880312953102960550038244432814144,
  2863688470765632,
  485667223056432267729865476705879726660601709763034880312953102813012114451775365184,
  2854894525227072,
  485667223056432267729865476705879726660601709763034880312953102960550038244432814144,
  2863688470765632,
  728500834584648401594798215058819589990902564644552320469429654173301950826609909824,
  2303349253480512,
  728500834584648401594798215058819589990902564644552320469429654177912510945130455104,
  2866299173347392,
  728500834584648401594798215058819589990902564644552320469429654173301950826609909824,
  2303349253480512,
  728500834584648401594798215058819589990902564644552320469429654177912510945130455104,
  2866299173347392,
  728500834584648401594798215058819589990902564644552320469429654025764027033952460864,
  2294555307941952,
  728500834584648401594798215058819589990902564644552320469429654173301950826609909824,
  2303349253480512,
  728500834584648401594798215058819589990902564644552320469429654030374587152473006144,
  2857505227808832,
  728500834584648401594798215058819589990902564644552320469429654177912510945130455104,
  2866299173347392,
  485667223056432267729865476705879726660601709763034880312953102960550038244432814144,
  2863688470765632,
  485667223056432267729865476705879726660601709763034880312953102960550038244432814144,
  2863688470765632,
  485667223056432267729865476705879726660601709763034880312953102813012114451775365184,
  2854894525227072,
  485667223056432267729865476705879726660601709763034880312953102960550038244432814144,
  2863688470765632,
  651851512427035547605902620291001011536469885973099600203564943793402016593090008290085838912,
  198198570708115520,
  651851512427035547605902620291001011536469885973099600203564943793402016595395288349346111552,
  198198708113514560,
  912592117397849766648263668407401416151057840362339440284990921310762822667685230299226841152,
  162354448692944960,
  912592117397849766648263668407401416151057840362339440284990921310762822962761077884541739072,
  198383243564425280,
  912592117397849766648263668407401416151057840362339440284990921310762822669990510358487113792,
  162354586098344000,
  912592117397849766648263668407401416151057840362339440284990921310762822965066357943802011712,
  198383380969824320,
  651851512427035547605902620291001011536469885973099600203564943793402016593090008290085838912,
  198198570708115520,
  651851512427035547605902620291001011536469885973099600203564943793402016595395288349346111552,
  198198708113514560,
  912592117397849766648263668407401416151057840362339440284990921310762822667685230299226841152,
  162354448692944960,
  912592117397849766648263668407401416151057840362339440284990921310762822962761077884541739072,
  198383243564425280,
  912592117397849766648263668407401416151057840362339440284990921310762822669990510358487113792,
  162354586098344000,
  912592117397849766648263668407401416151057840362339440284990921310762822965066357943802011712,
  198383380969824320,
  912592117397849766648263668407401416151057840362339440284990921310762822667685230299226841152,
  162354448692944960,
  912592117397849766648263668407401416151057840362339440284990921310762822962761077884541739072,
  198383243564425280,
  912592117397849766648263668407401416151057840362339440284990921310762822669990510358487113792,
  162354586098344000,
  912592117397849766648263668407401416151057840362339440284990921310762822965066357943802011712,
  198383380969824320,
  912592117397849766648263668407401416151057840362339440284990921310762822667685230299226841152,
  162354448692944960,
  912592117397849766648263668407401416151057840362339440284990921310762822962761077884541739072,
  198383243564425280,
  912592117397849766648263668407401416151057840362339440284990921310762822669990510358487113792,
  162354586098344000,
  912592117397849766648263668407401416151057840362339440284990921310762822965066357943802011712,
  198383380969824320,
  1173332722368663985690624716523801820765645794751579280366416898828123629184894223686340190272,
  918783262083260480,
  1173332722368663985690624716523801820765645794751579280366416898828123629184894223686340190272,
  918783262083260480,
  1173332722368663985690624716523801820765645794751579280366416898828123629187199503745600462912,
  918783399488659520,
  1173332722368663985690624716523801820765645794751579280366416898828123629187199503745600462912,
  918783399488659520,
  651851512427035547605902620291001011536469885973099600203564943793402016595395288349346111552,
  198198708113514560,
  912592117397849766648263668407401416151057840362339440284990921310762822669990510358487113792,
  162354586098344000,
  912592117397849766648263668407401416151057840362339440284990921310762822965066357943802011712,
  198383380969824320,
  651851512427035547605902620291001011536469885973099600203564943793402016595395288349346111552,
  198198708113514560,
  912592117397849766648263668407401416151057840362339440284990921310762822669990510358487113792,
  162354586098344000,
  912592117397849766648263668407401416151057840362339440284990921310762822965066357943802011712,
  198383380969824320,
  912592117397849766648263668407401416151057840362339440284990921310762822669990510358487113792,
  162354586098344000,
  912592117397849766648263668407401416151057840362339440284990921310762822965066357943802011712,
  198383380969824320,
  912592117397849766648263668407401416151057840362339440284990921310762822669990510358487113792,
  162354586098344000,
  912592117397849766648263668407401416151057840362339440284990921310762822965066357943802011712,
  198383380969824320,
  1173332722368663985690624716523801820765645794751579280366416898828123629187199503745600462912,
  918783399488659520,
  1173332722368663985690624716523801820765645794751579280366416898828123629187199503745600462912,
  918783399488659520,
  651851512427035547605902620291001011536469885973099600203564943793402016595395288349346111552,
  198198708113514560,
  912592117397849766648263668407401416151057840362339440284990921310762822669990510358487113792,
  162354586098344000,
  912592117397849766648263668407401416151057840362339440284990921310762822965066357943802011712,
  198383380969824320,
  651851512427035547605902620291001011536469885973099600203564943793402016595395288349346111552,
  198198708113514560,
  912592117397849766648263668407401416151057840362339440284990921310762822669990510358487113792,
  162354586098344000,
  912592117397849766648263668407401416151057840362339440284990921310762822965066357943802011712,
  198383380969824320,
  912592117397849766648263668407401416151057840362339440284990921310762822669990510358487113792,
  162354586098344000,
  912592117397849766648263668407401416151057840362339440284990921310762822965066357943802011712,
  198383380969824320,
  912592117397849766648263668407401416151057840362339440284990921310762822669990510358487113792,
  162354586098344000,
  912592117397849766648263668407401416151057840362339440284990921310762822965066357943802011712,
  198383380969824320,
  1173332722368663985690624716523801820765645794751579280366416898828123629187199503745600462912,
  918783399488659520,
  1173332722368663985690624716523801820765645794751579280366416898828123629187199503745600462912,
  918783399488659520,
  159143435651131725489722319406982668832145968255151269580948472605811710171553050829529152,
  198198705966030912,
  222800809911584415685611247169775736365004355557211777413327861648135830677280940563898432,
  162345790005321792,
  222800809911584415685611247169775736365004355557211777413327861648136125753128525878796352,
  198374584876802112,
  159143435651131725489722319406982668832145968255151269580948472605811710171553050829529152,
  198198705966030912,
  222800809911584415685611247169775736365004355557211777413327861648135830677280940563898432,
  162345790005321792,
  222800809911584415685611247169775736365004355557211777413327861648136125753128525878796352,
  198374584876802112,
  222800809911584415685611247169775736365004355557211777413327861648135830677280940563898432,
  162345790005321792,
  222800809911584415685611247169775736365004355557211777413327861648136125753128525878796352,
  198374584876802112,
  222800809911584415685611247169775736365004355557211777413327861648135830677280940563898432,
  162345790005321792,
  222800809911584415685611247169775736365004355557211777413327861648136125753128525878796352,
  198374584876802112,
  286458184172037105881500174932568803897862742859272285245707250690460393796780208270614592,
  882754602469695552,
  286458184172037105881500174932568803897862742859272285245707250690460393796780208270614592,
  882754602469695552,
  159143435651131725489722319406982668832145968255151269580948472605811710171553050829529152,
  198198705966030912,
  222800809911584415685611247169775736365004355557211777413327861648135830677280940563898432,
  162345790005321792,
  222800809911584415685611247169775736365004355557211777413327861648136125753128525878796352,
  198374584876802112,
  159143435651131725489722319406982668832145968255151269580948472605811710171553050829529152,
  198198705966030912,
  222800809911584415685611247169775736365004355557211777413327861648135830677280940563898432,
  162345790005321792,
  222800809911584415685611247169775736365004355557211777413327861648136125753128525878796352,
  198374584876802112,
  222800809911584415685611247169775736365004355557211777413327861648135830677280940563898432,
  162345790005321792,
  222800809911584415685611247169775736365004355557211777413327861648136125753128525878796352,
  198374584876802112,
  222800809911584415685611247169775736365004355557211777413327861648135830677280940563898432,
  162345790005321792,
  222800809911584415685611247169775736365004355557211777413327861648136125753128525878796352,
  198374584876802112,
  286458184172037105881500174932568803897862742859272285245707250690460393796780208270614592,
  882754602469695552,
  286458184172037105881500174932568803897862742859272285245707250690460393796780208270614592,
  882754602469695552,
  159143435651131725489722319406982668832145968255151269580948472605811710171553050829529152,
  198198705966030912,
  159143435651131725489722319406982668832145968255151269580948472605811707866272991569256512,
  198198568560631872,
  222800809911584415685611247169775736365004355557211777413327861648135830677280940563898432,
  162345790005321792,
  222800809911584415685611247169775736365004355557211777413327861648136125753128525878796352,
  198374584876802112,
  222800809911584415685611247169775736365004355557211777413327861648135828372000881303625792,
  162345652599922752,
  222800809911584415685611247169775736365004355557211777413327861648136123447848466618523712,
  198374447471403072,
  159143435651131725489722319406982668832145968255151269580948472605811710171553050829529152,
  198198705966030912,
  159143435651131725489722319406982668832145968255151269580948472605811707866272991569256512,
  198198568560631872,
  222800809911584415685611247169775736365004355557211777413327861648135830677280940563898432,
  162345790005321792,
  222800809911584415685611247169775736365004355557211777413327861648136125753128525878796352,
  198374584876802112,
  222800809911584415685611247169775736365004355557211777413327861648135828372000881303625792,
  162345652599922752,
  222800809911584415685611247169775736365004355557211777413327861648136123447848466618523712,
  198374447471403072,
  222800809911584415685611247169775736365004355557211777413327861648135830677280940563898432,
  162345790005321792,
  222800809911584415685611247169775736365004355557211777413327861648136125753128525878796352,
  198374584876802112,
  222800809911584415685611247169775736365004355557211777413327861648135828372000881303625792,
  162345652599922752,
  222800809911584415685611247169775736365004355557211777413327861648136123447848466618523712,
  198374447471403072,
  222800809911584415685611247169775736365004355557211777413327861648135830677280940563898432,
  162345790005321792,
  222800809911584415685611247169775736365004355557211777413327861648136125753128525878796352,
  198374584876802112,
  222800809911584415685611247169775736365004355557211777413327861648135828372000881303625792,
  162345652599922752,
  222800809911584415685611247169775736365004355557211777413327861648136123447848466618523712,
  198374447471403072,
  286458184172037105881500174932568803897862742859272285245707250690460393796780208270614592,
  882754602469695552,
  286458184172037105881500174932568803897862742859272285245707250690460393796780208270614592,
  882754602469695552,
  286458184172037105881500174932568803897862742859272285245707250690460391491500149010341952,
  882754465064296512,
  286458184172037105881500174932568803897862742859272285245707250690460391491500149010341952,
  882754465064296512,
  2283003892736064,
  2283003892736064,
  2283003892727874,
  2283003892727874,
  2283003892211904,
  2283003892211904,
  2283003892203714,
  2283003892203714,
  1720191378268224,
  1720191378268224,
  1720191378260034,
  1720191378260034,
  1720191377744064,
  1720191377744064,
  1720191377735874,
  1720191377735874]
def optWnT3_mat_cert_1 : List Nat := [1157241458401344,
  1719916567470144,
  1157241458393154,
  1719916567461954,
  1157241457877184,
  1719916566945984,
  1157241457868994,
  1719916566937794,
  162160790664388672,
  162160790664388672,
  162160790664380482,
  162160790664380482,
  162160790663864512,
  162160790663864512,
  162160790663856322,
  162160790663856322,
  162160790664388672,
  162160790664388672,
  162160790664380482,
  162160790664380482,
  162160790663864512,
  162160790663864512,
  162160790663856322,
  162160790663856322,
  2283003892736064,
  2283003892736064,
  2283003892727874,
  2283003892727874,
  2283003892211904,
  2283003892211904,
  2283003892203714,
  2283003892203714,
  1720191378268224,
  1720191378268224,
  1720191378260034,
  1720191378260034,
  1720191377744064,
  1720191377744064,
  1720191377735874,
  1720191377735874,
  1157241458401344,
  1719916567470144,
  1157241458393154,
  1719916567461954,
  1157241457877184,
  1719916566945984,
  1157241457868994,
  1719916566937794,
  126140789738446912,
  126140789738446912,
  126140789738438722,
  126140789738438722,
  126140789737922752,
  126140789737922752,
  126140789737914562,
  126140789737914562,
  126140789738446912,
  126140789738446912,
  126140789738438722,
  126140789738438722,
  126140789737922752,
  126140789737922752,
  126140789737914562,
  126140789737914562,
  90111994866966592,
  126123201847369792,
  90111994866958402,
  126123201847361602,
  90111994866442432,
  126123201846845632,
  90111994866434242,
  126123201846837442,
  90111994866966592,
  126123201847369792,
  90111994866958402,
  126123201847361602,
  90111994866442432,
  126123201846845632,
  90111994866434242,
  126123201846837442]

/-- Check optWnT3_mat. C77 -/
theorem optWnT3_mat : isZero kinds [aᵥ, bᵥ, iₒ, jₒ] 576
    (Prog.rep 71 39 [2, 3, 0, 1] (Wick.matP ⟨1, [⟨71, [8, 10, 9, 11]⟩], [(true, 0), (true, 2), (false, 3), (false, 1), (true, 8), (true, 10), (false, 11), (false, 9)]⟩ [1, 3, 0, 2] [(1/576, [3], .fluct)]) ++ (Prog.scale (-1) (Prog.outs [2, 3, 0, 1] (Prog.through tamps_antisym_T2 (optWnT3)))))
    (optWnT3_mat_cert_0 ++ (optWnT3_mat_cert_1)) = true := by decide +kernel

def wnT2T3_mat_cert_0 : List Nat := [38853555730111672245394457597396097729646576367056733015352753812167258214938572496960,
  11729667886733336640,
  38853555730111672245394457597396097729646576367056733015352753812019720291145915048000,
  11693647885807394880,
  38853555730111672245394457597396097729646576367056733015352753812167258214938572496960,
  11729667886733336640,
  38853555730111672245394457597396097729646576367056733015352753812019720291145915048000,
  11693647885807394880,
  38853555730111672245394457597396097729646576367056733015352753812167258214938572496960,
  11729667886733336640,
  38853555730111672245394457597396097729646576367056733015352753812167258214938572496960,
  11729667886733336640,
  38853555730111672245394457597396097729646576367056733015352753812167258214938572496960,
  11729667886733336640,
  38853555730111672245394457597396097729646576367056733015352753812019720291145915048000,
  11693647885807394880,
  38853555730111672245394457597396097729646576367056733015352753812167258214938572496960,
  11729667886733336640,
  38853555730111672245394457597396097729646576367056733015352753812019720291145915048000,
  11693647885807394880,
  38853555730111672245394457597396097729646576367056733015352753812167258214938572496960,
  11729667886733336640,
  38853555730111672245394457597396097729646576367056733015352753812167258214938572496960,
  11729667886733336640,
  38853555730111672245394457597396097729646576367056733015352753812167258214938572496960,
  11729667886733336640,
  38853555730111672245394457597396097729646576367056733015352753812164952934879312224320,
  9424387827473064000,
  38853555730111672245394457597396097729646576367056733015352753812019720291145915048000,
  11693647885807394880,
  38853555730111672245394457597396097729646576367056733015352753812167258214938572496960,
  11729667886733336640,
  38853555730111672245394457597396097729646576367056733015352753812017415011086654775360,
  9388367826547122240,
  38853555730111672245394457597396097729646576367056733015352753812164952934879312224320,
  9424387827473064000,
  38853555730111672245394457597396097729646576367056733015352753812019720291145915048000,
  11693647885807394880,
  38853555730111672245394457597396097729646576367056733015352753812167258214938572496960,
  11729667886733336640,
  38853555730111672245394457597396097729646576367056733015352753812017415011086654775360,
  9388367826547122240,
  38853555730111672245394457597396097729646576367056733015352753812164952934879312224320,
  9424387827473064000,
  38853555730111672245394457597396097729646576367056733015352753812167258214938572496960,
  11729667886733336640,
  38853555730111672245394457597396097729646576367056733015352753812164952934879312224320,
  9424387827473064000,
  38853555730111672245394457597396097729646576367056733015352753812167258214938572496960,
  11729667886733336640,
  38853555730111672245394457597396097729646576367056733015352753812019720291145915048000,
  11693647885807394880,
  38853555730111672245394457597396097729646576367056733015352753812167258214938572496960,
  11729667886733336640,
  38853555730111672245394457597396097729646576367056733015352753812167258214938572496960,
  11729667886733336640,
  38853555730111672245394457597396097729646576367056733015352753812164952934879312224320,
  9424387827473064000,
  38853555730111672245394457597396097729646576367056733015352753812017415011086654775360,
  9388367826547122240,
  38853555730111672245394457597396097729646576367056733015352753812167258214938572496960,
  11729667886733336640,
  38853555730111672245394457597396097729646576367056733015352753812019720291145915048000,
  11693647885807394880,
  38853555730111672245394457597396097729646576367056733015352753812164952934879312224320,
  9424387827473064000,
  38853555730111672245394457597396097729646576367056733015352753812167258214938572496960,
  11729667886733336640,
  38853555730111672245394457597396097729646576367056733015352753812164952934879312224320,
  9424387827473064000,
  38853555730111672245394457597396097729646576367056733015352753812167258214938572496960,
  11729667886733336640,
  38853555730111672245394457597396097729646576367056733015352753812164952934879312224320,
  9424387827473064000,
  38853555730111672245394457597396097729646576367056733015352753812017415011086654775360,
  9388367826547122240,
  38853555730111672245394457597396097729646576367056733015352753812167258214938572496960,
  11729667886733336640,
  38853555730111672245394457597396097729646576367056733015352753812019720291145915048000,
  11693647885807394880,
  38853555730111672245394457597396097729646576367056733015352753812164952934879312224320,
  9424387827473064000,
  38853555730111672245394457597396097729646576367056733015352753812167258214938572496960,
  11729667886733336640,
  38853555730111672245394457597396097729646576367056733015352753812164952934879312224320,
  9424387827473064000,
  38853555730111672245394457597396097729646576367056733015352753812167258214938572496960,
  11729667886733336640,
  38853555730111672245394457597396097729646576367056733015352753812167258214938572496960,
  11729667886733336640,
  38853555730111672245394457597396097729646576367056733015352753812019720291145915048000,
  11693647885807394880,
  38853555730111672245394457597396097729646576367056733015352753812167258214938572496960,
  11729667886733336640,
  38853555730111672245394457597396097729646576367056733015352753812167258214938572496960,
  11729667886733336640,
  651851512912880627311403405697037093275322957260163932663046248012719725883770326136109408320,
  11729667891095412800,
  651851513398547850367835673426902569981202683920765642426081128325672828311579431359723872320,
  9434520930392744000,
  651851513398547850367835673426902569981202683920765642426081128325672828318495271537504690240,
  11740363939572883520,
  651851512912880627311403405697037093275322957260163932663046248012719725736232402343451959360,
  11693647890169471040,
  651851512912880627311403405697037093275322957260163932663046248012719725883770326136109408320,
  11729667891095412800,
  651851513398547850367835673426902569981202683920765642426081128325672828164041507567066423360,
  9398500929466802240,
  651851513398547850367835673426902569981202683920765642426081128325672828311579431359723872320,
  9434520930392744000,
  651851513398547850367835673426902569981202683920765642426081128325672828170957347744847241280,
  11704343938646941760,
  651851513398547850367835673426902569981202683920765642426081128325672828318495271537504690240,
  11740363939572883520,
  651851512912880627311403405697037093275322957260163932663046248012719725736232402343451959360,
  11693647890169471040,
  651851512912880627311403405697037093275322957260163932663046248012719725883770326136109408320,
  11729667891095412800,
  651851513398547850367835673426902569981202683920765642426081128325672828164041507567066423360,
  9398500929466802240,
  651851513398547850367835673426902569981202683920765642426081128325672828311579431359723872320,
  9434520930392744000,
  651851513398547850367835673426902569981202683920765642426081128325672828170957347744847241280,
  11704343938646941760,
  651851513398547850367835673426902569981202683920765642426081128325672828318495271537504690240,
  11740363939572883520,
  651851512912880627311403405697037093275322957260163932663046248012719725883770326136109408320,
  11729667891095412800,
  651851513398547850367835673426902569981202683920765642426081128325672828311579431359723872320,
  9434520930392744000,
  651851513398547850367835673426902569981202683920765642426081128325672828318495271537504690240,
  11740363939572883520,
  651851513155654953289930033669912963283938372381643913312414880200408074818121310264384823360,
  11729668028500811840,
  651851513155654953289930033669912963283938372381643913312414880200408074670583386471727374400,
  11693648027574870080,
  651851513155654953289930033669912963283938372381643913312414880200408074818121310264384823360,
  11729668028500811840,
  651851513155654953289930033669912963283938372381643913312414880200408074670583386471727374400,
  11693648027574870080,
  651851513155654953289930033669912963283938372381643913312414880200408074818121310264384823360,
  11729668028500811840,
  651851513155654953289930033669912963283938372381643913312414880200408074818121310264384823360,
  11729668028500811840,
  651851512912880627311403405697037093275322957260163932663046248012719725883770326136109408320,
  11729667891095412800,
  651851513398547850367835673426902569981202683920765642426081128325672828311579431359723872320,
  9434520930392744000,
  651851513398547850367835673426902569981202683920765642426081128325672828318495271537504690240,
  11740363939572883520,
  651851512912880627311403405697037093275322957260163932663046248012719725736232402343451959360,
  11693647890169471040,
  651851512912880627311403405697037093275322957260163932663046248012719725883770326136109408320,
  11729667891095412800,
  651851513398547850367835673426902569981202683920765642426081128325672828164041507567066423360,
  9398500929466802240,
  651851513398547850367835673426902569981202683920765642426081128325672828311579431359723872320,
  9434520930392744000,
  651851513398547850367835673426902569981202683920765642426081128325672828170957347744847241280,
  11704343938646941760,
  651851513398547850367835673426902569981202683920765642426081128325672828318495271537504690240,
  11740363939572883520,
  651851512912880627311403405697037093275322957260163932663046248012719725736232402343451959360,
  11693647890169471040,
  651851512912880627311403405697037093275322957260163932663046248012719725883770326136109408320,
  11729667891095412800,
  651851513398547850367835673426902569981202683920765642426081128325672828164041507567066423360,
  9398500929466802240,
  651851513398547850367835673426902569981202683920765642426081128325672828311579431359723872320,
  9434520930392744000,
  651851513398547850367835673426902569981202683920765642426081128325672828170957347744847241280,
  11704343938646941760,
  651851513398547850367835673426902569981202683920765642426081128325672828318495271537504690240,
  11740363939572883520,
  651851512912880627311403405697037093275322957260163932663046248012719725883770326136109408320,
  11729667891095412800,
  651851513398547850367835673426902569981202683920765642426081128325672828311579431359723872320,
  9434520930392744000,
  651851513398547850367835673426902569981202683920765642426081128325672828318495271537504690240,
  11740363939572883520,
  651851512912880627311403405697037093275322957260163932663046248012719725883770326136109408320,
  11729667891095412800,
  651851513398547850367835673426902569981202683920765642426081128325672828311579431359723872320,
  9434520930392744000,
  651851512912880627311403405697037093275322957260163932663046248012719725881465046076849135680,
  9424387831835140160,
  651851513398547850367835673426902569981202683920765642426081128325672828318495271537504690240,
  11740363939572883520,
  651851512912880627311403405697037093275322957260163932663046248012719725736232402343451959360,
  11693647890169471040,
  651851512912880627311403405697037093275322957260163932663046248012719725883770326136109408320,
  11729667891095412800,
  651851513398547850367835673426902569981202683920765642426081128325672828164041507567066423360,
  9398500929466802240,
  651851513398547850367835673426902569981202683920765642426081128325672828311579431359723872320,
  9434520930392744000,
  651851512912880627311403405697037093275322957260163932663046248012719725733927122284191686720,
  9388367830909198400,
  651851512912880627311403405697037093275322957260163932663046248012719725881465046076849135680,
  9424387831835140160,
  651851513398547850367835673426902569981202683920765642426081128325672828170957347744847241280,
  11704343938646941760,
  651851513398547850367835673426902569981202683920765642426081128325672828318495271537504690240,
  11740363939572883520,
  651851512912880627311403405697037093275322957260163932663046248012719725736232402343451959360,
  11693647890169471040,
  651851512912880627311403405697037093275322957260163932663046248012719725883770326136109408320,
  11729667891095412800,
  651851513398547850367835673426902569981202683920765642426081128325672828164041507567066423360,
  9398500929466802240,
  651851513398547850367835673426902569981202683920765642426081128325672828311579431359723872320,
  9434520930392744000,
  651851512912880627311403405697037093275322957260163932663046248012719725733927122284191686720,
  9388367830909198400,
  651851512912880627311403405697037093275322957260163932663046248012719725881465046076849135680,
  9424387831835140160,
  651851513398547850367835673426902569981202683920765642426081128325672828170957347744847241280,
  11704343938646941760,
  651851513398547850367835673426902569981202683920765642426081128325672828318495271537504690240,
  11740363939572883520,
  651851512912880627311403405697037093275322957260163932663046248012719725883770326136109408320,
  11729667891095412800,
  651851513398547850367835673426902569981202683920765642426081128325672828311579431359723872320,
  9434520930392744000,
  651851512912880627311403405697037093275322957260163932663046248012719725881465046076849135680,
  9424387831835140160,
  651851513398547850367835673426902569981202683920765642426081128325672828318495271537504690240,
  11740363939572883520,
  651851513155654953289930033669912963283938372381643913312414880200408074818121310264384823360,
  11729668028500811840,
  651851513155654953289930033669912963283938372381643913312414880200408074815816030205124550720,
  9424387969240539200,
  651851513155654953289930033669912963283938372381643913312414880200408074670583386471727374400,
  11693648027574870080,
  651851513155654953289930033669912963283938372381643913312414880200408074818121310264384823360,
  11729668028500811840,
  651851513155654953289930033669912963283938372381643913312414880200408074668278106412467101760,
  9388367968314597440,
  651851513155654953289930033669912963283938372381643913312414880200408074815816030205124550720,
  9424387969240539200,
  651851513155654953289930033669912963283938372381643913312414880200408074670583386471727374400,
  11693648027574870080,
  651851513155654953289930033669912963283938372381643913312414880200408074818121310264384823360,
  11729668028500811840,
  651851513155654953289930033669912963283938372381643913312414880200408074668278106412467101760,
  9388367968314597440,
  651851513155654953289930033669912963283938372381643913312414880200408074815816030205124550720,
  9424387969240539200,
  651851513155654953289930033669912963283938372381643913312414880200408074818121310264384823360,
  11729668028500811840,
  651851513155654953289930033669912963283938372381643913312414880200408074815816030205124550720,
  9424387969240539200,
  651851513155654953289930033669912963283938372381643913312414880200408074818121310264384823360,
  11729668028500811840,
  651851513155654953289930033669912963283938372381643913312414880200408074670583386471727374400,
  11693648027574870080,
  651851513155654953289930033669912963283938372381643913312414880200408074818121310264384823360,
  11729668028500811840,
  651851513155654953289930033669912963283938372381643913312414880200408074670583386471727374400,
  11693648027574870080,
  651851513155654953289930033669912963283938372381643913312414880200408074818121310264384823360,
  11729668028500811840,
  651851513155654953289930033669912963283938372381643913312414880200408074818121310264384823360,
  11729668028500811840,
  651851513155654953289930033669912963283938372381643913312414880200408074818121310264384823360,
  11729668028500811840,
  651851513155654953289930033669912963283938372381643913312414880200408074815816030205124550720,
  9424387969240539200,
  651851513155654953289930033669912963283938372381643913312414880200408074670583386471727374400,
  11693648027574870080,
  651851513155654953289930033669912963283938372381643913312414880200408074818121310264384823360,
  11729668028500811840,
  651851513155654953289930033669912963283938372381643913312414880200408074668278106412467101760,
  9388367968314597440,
  651851513155654953289930033669912963283938372381643913312414880200408074815816030205124550720,
  9424387969240539200,
  651851513155654953289930033669912963283938372381643913312414880200408074670583386471727374400,
  11693648027574870080,
  651851513155654953289930033669912963283938372381643913312414880200408074818121310264384823360,
  11729668028500811840,
  651851513155654953289930033669912963283938372381643913312414880200408074668278106412467101760,
  9388367968314597440,
  651851513155654953289930033669912963283938372381643913312414880200408074815816030205124550720,
  9424387969240539200,
  651851513155654953289930033669912963283938372381643913312414880200408074818121310264384823360,
  11729668028500811840,
  651851513155654953289930033669912963283938372381643913312414880200408074815816030205124550720,
  9424387969240539200,
  651851513155654953289930033669912963283938372381643913312414880200408074818121310264384823360,
  11729668028500811840,
  651851513155773524389309045454026699972587268799285661776712496137984479377228447231448457280,
  9433958117878276160,
  651851513155773524389309045454026699972587268799285661776712496137984479384144287409229275200,
  11739801127058415680,
  651851513155654953289930033669912963283938372381643913312414880200408074670583386471727374400,
  11693648027574870080,
  651851513155654953289930033669912963283938372381643913312414880200408074818121310264384823360,
  11729668028500811840,
  651851513155773524389309045454026699972587268799285661776712496137984479229690523438791008320,
  9397938116952334400,
  651851513155773524389309045454026699972587268799285661776712496137984479377228447231448457280,
  9433958117878276160,
  651851513155773524389309045454026699972587268799285661776712496137984479236606363616571826240,
  11703781126132473920,
  651851513155773524389309045454026699972587268799285661776712496137984479384144287409229275200,
  11739801127058415680,
  651851513155654953289930033669912963283938372381643913312414880200408074670583386471727374400,
  11693648027574870080,
  651851513155654953289930033669912963283938372381643913312414880200408074818121310264384823360,
  11729668028500811840,
  651851513155773524389309045454026699972587268799285661776712496137984479229690523438791008320,
  9397938116952334400,
  651851513155773524389309045454026699972587268799285661776712496137984479377228447231448457280,
  9433958117878276160,
  651851513155773524389309045454026699972587268799285661776712496137984479236606363616571826240,
  11703781126132473920,
  651851513155773524389309045454026699972587268799285661776712496137984479384144287409229275200,
  11739801127058415680,
  651851513155654953289930033669912963283938372381643913312414880200408074818121310264384823360,
  11729668028500811840,
  651851513155773524389309045454026699972587268799285661776712496137984479377228447231448457280,
  9433958117878276160,
  651851513155773524389309045454026699972587268799285661776712496137984479384144287409229275200,
  11739801127058415680,
  651851512912880627311403405697037093275322957260163932663046248012719725883770326136109408320,
  11729667891095412800,
  651851512912880627311403405697037093275322957260163932663046248012719725736232402343451959360,
  11693647890169471040,
  651851512912880627311403405697037093275322957260163932663046248012719725883770326136109408320,
  11729667891095412800,
  651851512912880627311403405697037093275322957260163932663046248012719725736232402343451959360,
  11693647890169471040,
  651851512912880627311403405697037093275322957260163932663046248012719725883770326136109408320,
  11729667891095412800,
  651851512912880627311403405697037093275322957260163932663046248012719725883770326136109408320,
  11729667891095412800,
  651851513155654953289930033669912963283938372381643913312414880200408074818121310264384823360,
  11729668028500811840,
  651851513155773524389309045454026699972587268799285661776712496137984479377228447231448457280,
  9433958117878276160,
  651851513155773524389309045454026699972587268799285661776712496137984479384144287409229275200,
  11739801127058415680,
  651851513155654953289930033669912963283938372381643913312414880200408074670583386471727374400,
  11693648027574870080,
  651851513155654953289930033669912963283938372381643913312414880200408074818121310264384823360,
  11729668028500811840,
  651851513155773524389309045454026699972587268799285661776712496137984479229690523438791008320,
  9397938116952334400,
  651851513155773524389309045454026699972587268799285661776712496137984479377228447231448457280,
  9433958117878276160,
  651851513155773524389309045454026699972587268799285661776712496137984479236606363616571826240,
  11703781126132473920,
  651851513155773524389309045454026699972587268799285661776712496137984479384144287409229275200,
  11739801127058415680,
  651851513155654953289930033669912963283938372381643913312414880200408074670583386471727374400,
  11693648027574870080,
  651851513155654953289930033669912963283938372381643913312414880200408074818121310264384823360,
  11729668028500811840,
  651851513155773524389309045454026699972587268799285661776712496137984479229690523438791008320,
  9397938116952334400,
  651851513155773524389309045454026699972587268799285661776712496137984479377228447231448457280,
  9433958117878276160,
  651851513155773524389309045454026699972587268799285661776712496137984479236606363616571826240,
  11703781126132473920,
  651851513155773524389309045454026699972587268799285661776712496137984479384144287409229275200,
  11739801127058415680,
  651851513155654953289930033669912963283938372381643913312414880200408074818121310264384823360,
  11729668028500811840,
  651851513155773524389309045454026699972587268799285661776712496137984479377228447231448457280,
  9433958117878276160,
  651851513155773524389309045454026699972587268799285661776712496137984479384144287409229275200,
  11739801127058415680,
  651851513155654953289930033669912963283938372381643913312414880200408074818121310264384823360,
  11729668028500811840,
  651851513155773524389309045454026699972587268799285661776712496137984479377228447231448457280,
  9433958117878276160,
  651851513155654953289930033669912963283938372381643913312414880200408074815816030205124550720,
  9424387969240539200,
  651851513398547850367835673426902569981202683920765642426081128325672828311579431359723872320,
  9434520930392744000,
  651851513155773524389309045454026699972587268799285661776712496137984479384144287409229275200,
  11739801127058415680,
  651851513398547850367835673426902569981202683920765642426081128325672828318495271537504690240,
  11740363939572883520,
  651851513155654953289930033669912963283938372381643913312414880200408074670583386471727374400,
  11693648027574870080,
  651851513155654953289930033669912963283938372381643913312414880200408074818121310264384823360,
  11729668028500811840,
  651851513155773524389309045454026699972587268799285661776712496137984479229690523438791008320,
  9397938116952334400,
  651851513155773524389309045454026699972587268799285661776712496137984479377228447231448457280,
  9433958117878276160,
  651851513155654953289930033669912963283938372381643913312414880200408074668278106412467101760,
  9388367968314597440,
  651851513155654953289930033669912963283938372381643913312414880200408074815816030205124550720,
  9424387969240539200,
  651851513398547850367835673426902569981202683920765642426081128325672828164041507567066423360,
  9398500929466802240,
  651851513398547850367835673426902569981202683920765642426081128325672828311579431359723872320,
  9434520930392744000]
def wnT2T3_mat_cert_1 : List Nat := [651851513155773524389309045454026699972587268799285661776712496137984479236606363616571826240,
  11703781126132473920,
  651851513155773524389309045454026699972587268799285661776712496137984479384144287409229275200,
  11739801127058415680,
  651851513398547850367835673426902569981202683920765642426081128325672828170957347744847241280,
  11704343938646941760,
  651851513398547850367835673426902569981202683920765642426081128325672828318495271537504690240,
  11740363939572883520,
  651851513155654953289930033669912963283938372381643913312414880200408074670583386471727374400,
  11693648027574870080,
  651851513155654953289930033669912963283938372381643913312414880200408074818121310264384823360,
  11729668028500811840,
  651851513155773524389309045454026699972587268799285661776712496137984479229690523438791008320,
  9397938116952334400,
  651851513155773524389309045454026699972587268799285661776712496137984479377228447231448457280,
  9433958117878276160,
  651851513155654953289930033669912963283938372381643913312414880200408074668278106412467101760,
  9388367968314597440,
  651851513155654953289930033669912963283938372381643913312414880200408074815816030205124550720,
  9424387969240539200,
  651851513398547850367835673426902569981202683920765642426081128325672828164041507567066423360,
  9398500929466802240,
  651851513398547850367835673426902569981202683920765642426081128325672828311579431359723872320,
  9434520930392744000,
  651851513155773524389309045454026699972587268799285661776712496137984479236606363616571826240,
  11703781126132473920,
  651851513155773524389309045454026699972587268799285661776712496137984479384144287409229275200,
  11739801127058415680,
  651851513398547850367835673426902569981202683920765642426081128325672828170957347744847241280,
  11704343938646941760,
  651851513398547850367835673426902569981202683920765642426081128325672828318495271537504690240,
  11740363939572883520,
  651851513155654953289930033669912963283938372381643913312414880200408074818121310264384823360,
  11729668028500811840,
  651851513155773524389309045454026699972587268799285661776712496137984479377228447231448457280,
  9433958117878276160,
  651851513155654953289930033669912963283938372381643913312414880200408074815816030205124550720,
  9424387969240539200,
  651851513155654953289930033669912963283938372381643913312414880200408074815816030205124550720,
  9424387969240539200,
  651851513155773524389309045454026699972587268799285661776712496137984479384144287409229275200,
  11739801127058415680,
  651851513155654953289930033669912963283938372381643913312414880200408074818121310264384823360,
  11729668028500811840,
  651851512912880627311403405697037093275322957260163932663046248012719725883770326136109408320,
  11729667891095412800,
  651851512912880627311403405697037093275322957260163932663046248012719725881465046076849135680,
  9424387831835140160,
  651851513155654953289930033669912963283938372381643913312414880200408074818121310264384823360,
  11729668028500811840,
  651851512912880627311403405697037093275322957260163932663046248012719725736232402343451959360,
  11693647890169471040,
  651851512912880627311403405697037093275322957260163932663046248012719725883770326136109408320,
  11729667891095412800,
  651851512912880627311403405697037093275322957260163932663046248012719725733927122284191686720,
  9388367830909198400,
  651851512912880627311403405697037093275322957260163932663046248012719725881465046076849135680,
  9424387831835140160,
  651851513155654953289930033669912963283938372381643913312414880200408074670583386471727374400,
  11693648027574870080,
  651851513155654953289930033669912963283938372381643913312414880200408074818121310264384823360,
  11729668028500811840,
  651851512912880627311403405697037093275322957260163932663046248012719725736232402343451959360,
  11693647890169471040,
  651851512912880627311403405697037093275322957260163932663046248012719725883770326136109408320,
  11729667891095412800,
  651851512912880627311403405697037093275322957260163932663046248012719725733927122284191686720,
  9388367830909198400,
  651851512912880627311403405697037093275322957260163932663046248012719725881465046076849135680,
  9424387831835140160,
  651851513155654953289930033669912963283938372381643913312414880200408074670583386471727374400,
  11693648027574870080,
  651851513155654953289930033669912963283938372381643913312414880200408074818121310264384823360,
  11729668028500811840,
  651851512912880627311403405697037093275322957260163932663046248012719725883770326136109408320,
  11729667891095412800,
  651851512912880627311403405697037093275322957260163932663046248012719725881465046076849135680,
  9424387831835140160,
  651851513155654953289930033669912963283938372381643913312414880200408074818121310264384823360,
  11729668028500811840,
  651851512912880627311403405697037093275322957260163932663046248012719725883770326136109408320,
  11729667891095412800,
  651851512912880627311403405697037093275322957260163932663046248012719725736232402343451959360,
  11693647890169471040,
  651851512912880627311403405697037093275322957260163932663046248012719725883770326136109408320,
  11729667891095412800,
  651851512912880627311403405697037093275322957260163932663046248012719725736232402343451959360,
  11693647890169471040,
  651851512912880627311403405697037093275322957260163932663046248012719725883770326136109408320,
  11729667891095412800,
  651851512912880627311403405697037093275322957260163932663046248012719725883770326136109408320,
  11729667891095412800,
  651851512912880627311403405697037093275322957260163932663046248012719725883770326136109408320,
  11729667891095412800,
  651851512912880627311403405697037093275322957260163932663046248012719725881465046076849135680,
  9424387831835140160,
  651851513155654953289930033669912963283938372381643913312414880200408074818121310264384823360,
  11729668028500811840,
  651851512912880627311403405697037093275322957260163932663046248012719725736232402343451959360,
  11693647890169471040,
  651851512912880627311403405697037093275322957260163932663046248012719725883770326136109408320,
  11729667891095412800,
  651851512912880627311403405697037093275322957260163932663046248012719725733927122284191686720,
  9388367830909198400,
  651851512912880627311403405697037093275322957260163932663046248012719725881465046076849135680,
  9424387831835140160,
  651851513155654953289930033669912963283938372381643913312414880200408074670583386471727374400,
  11693648027574870080,
  651851513155654953289930033669912963283938372381643913312414880200408074818121310264384823360,
  11729668028500811840,
  651851512912880627311403405697037093275322957260163932663046248012719725736232402343451959360,
  11693647890169471040,
  651851512912880627311403405697037093275322957260163932663046248012719725883770326136109408320,
  11729667891095412800,
  651851512912880627311403405697037093275322957260163932663046248012719725733927122284191686720,
  9388367830909198400,
  651851512912880627311403405697037093275322957260163932663046248012719725881465046076849135680,
  9424387831835140160,
  651851513155654953289930033669912963283938372381643913312414880200408074670583386471727374400,
  11693648027574870080,
  651851513155654953289930033669912963283938372381643913312414880200408074818121310264384823360,
  11729668028500811840,
  651851512912880627311403405697037093275322957260163932663046248012719725883770326136109408320,
  11729667891095412800,
  651851512912880627311403405697037093275322957260163932663046248012719725881465046076849135680,
  9424387831835140160,
  651851513155654953289930033669912963283938372381643913312414880200408074818121310264384823360,
  11729668028500811840,
  651851512912880627311403405697037093275322957260163932663046248012719725883770326136109408320,
  11729667891095412800,
  651851512912880627311403405697037093275322957260163932663046248012719725736232402343451959360,
  11693647890169471040,
  651851512912939912861092911589093961619647405468984806895195055981507928162171254590011088960,
  9433955644581093440,
  651851512912939912861092911589093961619647405468984806895195055981507928014633330797353640000,
  9397935643655151680,
  651851512912939912861092911589093961619647405468984806895195055981507928166781814708531634240,
  11739798516355833920,
  651851512912939912861092911589093961619647405468984806895195055981507928019243890915874185280,
  11703778515429892160,
  651851512912880627311403405697037093275322957260163932663046248012719725883770326136109408320,
  11729667891095412800,
  651851513155773524389309045454026699972587268799285661776712496137984479377228447231448457280,
  9433958117878276160,
  651851513155773524389309045454026699972587268799285661776712496137984479384144287409229275200,
  11739801127058415680,
  651851512912880627311403405697037093275322957260163932663046248012719725883770326136109408320,
  11729667891095412800,
  651851513155773524389309045454026699972587268799285661776712496137984479377228447231448457280,
  9433958117878276160,
  651851513155773524389309045454026699972587268799285661776712496137984479384144287409229275200,
  11739801127058415680,
  651851512912880627311403405697037093275322957260163932663046248012719725881465046076849135680,
  9424387831835140160,
  651851512912880627311403405697037093275322957260163932663046248012719725733927122284191686720,
  9388367830909198400,
  651851513155773524389309045454026699972587268799285661776712496137984479377228447231448457280,
  9433958117878276160,
  651851513155773524389309045454026699972587268799285661776712496137984479229690523438791008320,
  9397938116952334400,
  651851512912880627311403405697037093275322957260163932663046248012719725883770326136109408320,
  11729667891095412800,
  651851512912880627311403405697037093275322957260163932663046248012719725736232402343451959360,
  11693647890169471040,
  651851513155773524389309045454026699972587268799285661776712496137984479384144287409229275200,
  11739801127058415680,
  651851513155773524389309045454026699972587268799285661776712496137984479236606363616571826240,
  11703781126132473920,
  651851512912880627311403405697037093275322957260163932663046248012719725881465046076849135680,
  9424387831835140160,
  651851513155773524389309045454026699972587268799285661776712496137984479377228447231448457280,
  9433958117878276160,
  651851512912880627311403405697037093275322957260163932663046248012719725883770326136109408320,
  11729667891095412800,
  651851513155773524389309045454026699972587268799285661776712496137984479384144287409229275200,
  11739801127058415680,
  651851512912880627311403405697037093275322957260163932663046248012719725881465046076849135680,
  9424387831835140160,
  651851513155773524389309045454026699972587268799285661776712496137984479377228447231448457280,
  9433958117878276160,
  651851512912880627311403405697037093275322957260163932663046248012719725883770326136109408320,
  11729667891095412800,
  651851513155773524389309045454026699972587268799285661776712496137984479384144287409229275200,
  11739801127058415680,
  651851512912880627311403405697037093275322957260163932663046248012719725881465046076849135680,
  9424387831835140160,
  651851512912880627311403405697037093275322957260163932663046248012719725733927122284191686720,
  9388367830909198400,
  651851512912880627311403405697037093275322957260163932663046248012719725883770326136109408320,
  11729667891095412800,
  651851512912880627311403405697037093275322957260163932663046248012719725736232402343451959360,
  11693647890169471040,
  651851512912880627311403405697037093275322957260163932663046248012719725881465046076849135680,
  9424387831835140160,
  651851512912880627311403405697037093275322957260163932663046248012719725883770326136109408320,
  11729667891095412800,
  651851512912880627311403405697037093275322957260163932663046248012719725881465046076849135680,
  9424387831835140160,
  651851512912880627311403405697037093275322957260163932663046248012719725883770326136109408320,
  11729667891095412800,
  651851512912880627311403405697037093275322957260163932663046248012719725881465046076849135680,
  9424387831835140160,
  651851512912880627311403405697037093275322957260163932663046248012719725733927122284191686720,
  9388367830909198400,
  651851513155773524389309045454026699972587268799285661776712496137984479377228447231448457280,
  9433958117878276160,
  651851513155773524389309045454026699972587268799285661776712496137984479229690523438791008320,
  9397938116952334400,
  651851512912880627311403405697037093275322957260163932663046248012719725883770326136109408320,
  11729667891095412800,
  651851512912880627311403405697037093275322957260163932663046248012719725736232402343451959360,
  11693647890169471040,
  651851513155773524389309045454026699972587268799285661776712496137984479384144287409229275200,
  11739801127058415680,
  651851513155773524389309045454026699972587268799285661776712496137984479236606363616571826240,
  11703781126132473920,
  651851512912880627311403405697037093275322957260163932663046248012719725881465046076849135680,
  9424387831835140160,
  651851513155773524389309045454026699972587268799285661776712496137984479377228447231448457280,
  9433958117878276160,
  651851512912880627311403405697037093275322957260163932663046248012719725883770326136109408320,
  11729667891095412800,
  651851513155773524389309045454026699972587268799285661776712496137984479384144287409229275200,
  11739801127058415680,
  651851512912880627311403405697037093275322957260163932663046248012719725881465046076849135680,
  9424387831835140160,
  651851513155773524389309045454026699972587268799285661776712496137984479377228447231448457280,
  9433958117878276160,
  651851512912880627311403405697037093275322957260163932663046248012719725883770326136109408320,
  11729667891095412800,
  651851513155773524389309045454026699972587268799285661776712496137984479384144287409229275200,
  11739801127058415680,
  651851512912880627311403405697037093275322957260163932663046248012719725883770326136109408320,
  11729667891095412800,
  651851512912880627311403405697037093275322957260163932663046248012719725736232402343451959360,
  11693647890169471040,
  651851512912880627311403405697037093275322957260163932663046248012719725883770326136109408320,
  11729667891095412800,
  651851512912880627311403405697037093275322957260163932663046248012719725883770326136109408320,
  11729667891095412800,
  651851512912880627311403405697037093275322957260163932663046248012719725883770326136109408320,
  11729667891095412800,
  651851512912880627311403405697037093275322957260163932663046248012719725736232402343451959360,
  11693647890169471040,
  651851512912880627311403405697037093275322957260163932663046248012719725883770326136109408320,
  11729667891095412800,
  651851512912880627311403405697037093275322957260163932663046248012719725883770326136109408320,
  11729667891095412800,
  651851512912880627311403405697037093275322957260163932663046248012719725881465046076849135680,
  9424387831835140160,
  651851512912880627311403405697037093275322957260163932663046248012719725733927122284191686720,
  9388367830909198400,
  651851512912880627311403405697037093275322957260163932663046248012719725883770326136109408320,
  11729667891095412800,
  651851512912880627311403405697037093275322957260163932663046248012719725736232402343451959360,
  11693647890169471040,
  651851512912880627311403405697037093275322957260163932663046248012719725881465046076849135680,
  9424387831835140160,
  651851512912880627311403405697037093275322957260163932663046248012719725883770326136109408320,
  11729667891095412800,
  651851512912880627311403405697037093275322957260163932663046248012719725881465046076849135680,
  9424387831835140160,
  651851512912880627311403405697037093275322957260163932663046248012719725883770326136109408320,
  11729667891095412800,
  651851512912880627311403405697037093275322957260163932663046248012719725883770326136109408320,
  11729667891095412800,
  651851512912880627311403405697037093275322957260163932663046248012719725736232402343451959360,
  11693647890169471040,
  651851512912880627311403405697037093275322957260163932663046248012719725883770326136109408320,
  11729667891095412800,
  651851512912880627311403405697037093275322957260163932663046248012719725883770326136109408320,
  11729667891095412800,
  651851513155654953289930033669912963283938372381643913312414880200408074818121310264384823360,
  11729668028500811840,
  651851513155654953289930033669912963283938372381643913312414880200408074670583386471727374400,
  11693648027574870080,
  651851513398488564818146167534845701636878235711944768193932320356884626030873222846561919040,
  9434518594500960320,
  651851513398488564818146167534845701636878235711944768193932320356884625883335299053904470080,
  9398498593575018560,
  651851513398488564818146167534845701636878235711944768193932320356884626035483782965082464320,
  11740361466275700800,
  651851513398488564818146167534845701636878235711944768193932320356884625887945859172425015360,
  11704341465349759040,
  651851513155654953289930033669912963283938372381643913312414880200408074818121310264384823360,
  11729668028500811840,
  651851513398547850367835673426902569981202683920765642426081128325672828311579431359723872320,
  9434520930392744000,
  651851513398547850367835673426902569981202683920765642426081128325672828318495271537504690240,
  11740363939572883520,
  651851513155654953289930033669912963283938372381643913312414880200408074818121310264384823360,
  11729668028500811840,
  651851513398547850367835673426902569981202683920765642426081128325672828311579431359723872320,
  9434520930392744000,
  651851513398547850367835673426902569981202683920765642426081128325672828318495271537504690240,
  11740363939572883520,
  651851513155654953289930033669912963283938372381643913312414880200408074815816030205124550720,
  9424387969240539200,
  651851513155654953289930033669912963283938372381643913312414880200408074668278106412467101760,
  9388367968314597440,
  651851513398547850367835673426902569981202683920765642426081128325672828311579431359723872320,
  9434520930392744000,
  651851513398547850367835673426902569981202683920765642426081128325672828164041507567066423360,
  9398500929466802240,
  651851513155654953289930033669912963283938372381643913312414880200408074818121310264384823360,
  11729668028500811840,
  651851513155654953289930033669912963283938372381643913312414880200408074670583386471727374400,
  11693648027574870080,
  651851513398547850367835673426902569981202683920765642426081128325672828311579431359723872320,
  9434520930392744000,
  651851513398547850367835673426902569981202683920765642426081128325672828164041507567066423360,
  9398500929466802240,
  651851513398547850367835673426902569981202683920765642426081128325672828318495271537504690240,
  11740363939572883520,
  651851513398547850367835673426902569981202683920765642426081128325672828170957347744847241280,
  11704343938646941760,
  651851513398547850367835673426902569981202683920765642426081128325672828318495271537504690240,
  11740363939572883520,
  651851513398547850367835673426902569981202683920765642426081128325672828170957347744847241280,
  11704343938646941760,
  651851513155654953289930033669912963283938372381643913312414880200408074815816030205124550720,
  9424387969240539200,
  651851513398547850367835673426902569981202683920765642426081128325672828311579431359723872320,
  9434520930392744000,
  651851513155654953289930033669912963283938372381643913312414880200408074818121310264384823360,
  11729668028500811840,
  651851513398547850367835673426902569981202683920765642426081128325672828311579431359723872320,
  9434520930392744000,
  651851513398547850367835673426902569981202683920765642426081128325672828318495271537504690240,
  11740363939572883520,
  651851513398547850367835673426902569981202683920765642426081128325672828318495271537504690240,
  11740363939572883520,
  651851513155654953289930033669912963283938372381643913312414880200408074815816030205124550720,
  9424387969240539200,
  651851513398547850367835673426902569981202683920765642426081128325672828311579431359723872320,
  9434520930392744000,
  651851513155654953289930033669912963283938372381643913312414880200408074818121310264384823360,
  11729668028500811840,
  651851513398547850367835673426902569981202683920765642426081128325672828311579431359723872320,
  9434520930392744000,
  651851513398547850367835673426902569981202683920765642426081128325672828318495271537504690240,
  11740363939572883520,
  651851513398547850367835673426902569981202683920765642426081128325672828318495271537504690240,
  11740363939572883520,
  651851513155654953289930033669912963283938372381643913312414880200408074815816030205124550720,
  9424387969240539200,
  651851513155654953289930033669912963283938372381643913312414880200408074668278106412467101760,
  9388367968314597440,
  651851513155654953289930033669912963283938372381643913312414880200408074818121310264384823360,
  11729668028500811840,
  651851513155654953289930033669912963283938372381643913312414880200408074670583386471727374400,
  11693648027574870080,
  651851513155654953289930033669912963283938372381643913312414880200408074818121310264384823360,
  11729668028500811840,
  651851513155654953289930033669912963283938372381643913312414880200408074670583386471727374400,
  11693648027574870080,
  651851513155654953289930033669912963283938372381643913312414880200408074815816030205124550720,
  9424387969240539200,
  651851513155654953289930033669912963283938372381643913312414880200408074818121310264384823360,
  11729668028500811840,
  651851513155654953289930033669912963283938372381643913312414880200408074818121310264384823360,
  11729668028500811840,
  651851513155654953289930033669912963283938372381643913312414880200408074815816030205124550720,
  9424387969240539200,
  651851513155654953289930033669912963283938372381643913312414880200408074818121310264384823360,
  11729668028500811840,
  651851513155654953289930033669912963283938372381643913312414880200408074818121310264384823360,
  11729668028500811840,
  651851513155654953289930033669912963283938372381643913312414880200408074815816030205124550720,
  9424387969240539200,
  651851513155654953289930033669912963283938372381643913312414880200408074668278106412467101760,
  9388367968314597440,
  651851513398547850367835673426902569981202683920765642426081128325672828311579431359723872320,
  9434520930392744000,
  651851513398547850367835673426902569981202683920765642426081128325672828164041507567066423360,
  9398500929466802240,
  651851513155654953289930033669912963283938372381643913312414880200408074818121310264384823360,
  11729668028500811840,
  651851513155654953289930033669912963283938372381643913312414880200408074670583386471727374400,
  11693648027574870080,
  651851513398547850367835673426902569981202683920765642426081128325672828311579431359723872320,
  9434520930392744000,
  651851513398547850367835673426902569981202683920765642426081128325672828164041507567066423360,
  9398500929466802240,
  651851513398547850367835673426902569981202683920765642426081128325672828318495271537504690240,
  11740363939572883520,
  651851513398547850367835673426902569981202683920765642426081128325672828170957347744847241280,
  11704343938646941760,
  651851513398547850367835673426902569981202683920765642426081128325672828318495271537504690240,
  11740363939572883520,
  651851513398547850367835673426902569981202683920765642426081128325672828170957347744847241280,
  11704343938646941760,
  651851513155654953289930033669912963283938372381643913312414880200408074815816030205124550720,
  9424387969240539200,
  651851513398547850367835673426902569981202683920765642426081128325672828311579431359723872320,
  9434520930392744000,
  651851513155654953289930033669912963283938372381643913312414880200408074818121310264384823360,
  11729668028500811840,
  651851513398547850367835673426902569981202683920765642426081128325672828311579431359723872320,
  9434520930392744000]
def wnT2T3_mat_cert_2 : List Nat := [651851513398547850367835673426902569981202683920765642426081128325672828318495271537504690240,
  11740363939572883520,
  651851513398547850367835673426902569981202683920765642426081128325672828318495271537504690240,
  11740363939572883520,
  651851513155654953289930033669912963283938372381643913312414880200408074815816030205124550720,
  9424387969240539200,
  651851513398547850367835673426902569981202683920765642426081128325672828311579431359723872320,
  9434520930392744000,
  651851513155654953289930033669912963283938372381643913312414880200408074818121310264384823360,
  11729668028500811840,
  651851513398547850367835673426902569981202683920765642426081128325672828311579431359723872320,
  9434520930392744000,
  651851513398547850367835673426902569981202683920765642426081128325672828318495271537504690240,
  11740363939572883520,
  651851513398547850367835673426902569981202683920765642426081128325672828318495271537504690240,
  11740363939572883520,
  651851513155654953289930033669912963283938372381643913312414880200408074818121310264384823360,
  11729668028500811840,
  651851513155654953289930033669912963283938372381643913312414880200408074670583386471727374400,
  11693648027574870080,
  651851513398547850367835673426902569981202683920765642426081128325672828311579431359723872320,
  9434520930392744000,
  651851513398547850367835673426902569981202683920765642426081128325672828164041507567066423360,
  9398500929466802240,
  651851513398547850367835673426902569981202683920765642426081128325672828318495271537504690240,
  11740363939572883520,
  651851513398547850367835673426902569981202683920765642426081128325672828170957347744847241280,
  11704343938646941760,
  651851513155654953289930033669912963283938372381643913312414880200408074818121310264384823360,
  11729668028500811840,
  651851513398547850367835673426902569981202683920765642426081128325672828311579431359723872320,
  9434520930392744000,
  651851513398547850367835673426902569981202683920765642426081128325672828318495271537504690240,
  11740363939572883520,
  651851513155654953289930033669912963283938372381643913312414880200408074818121310264384823360,
  11729668028500811840,
  651851513398547850367835673426902569981202683920765642426081128325672828311579431359723872320,
  9434520930392744000,
  651851513398547850367835673426902569981202683920765642426081128325672828318495271537504690240,
  11740363939572883520,
  651851513155654953289930033669912963283938372381643913312414880200408074818121310264384823360,
  11729668028500811840,
  651851513155654953289930033669912963283938372381643913312414880200408074670583386471727374400,
  11693648027574870080,
  651851513155654953289930033669912963283938372381643913312414880200408074815816030205124550720,
  9424387969240539200,
  651851513155654953289930033669912963283938372381643913312414880200408074668278106412467101760,
  9388367968314597440,
  651851513155654953289930033669912963283938372381643913312414880200408074818121310264384823360,
  11729668028500811840,
  651851513155654953289930033669912963283938372381643913312414880200408074670583386471727374400,
  11693648027574870080,
  651851513155654953289930033669912963283938372381643913312414880200408074818121310264384823360,
  11729668028500811840,
  651851513155654953289930033669912963283938372381643913312414880200408074815816030205124550720,
  9424387969240539200,
  651851513155654953289930033669912963283938372381643913312414880200408074818121310264384823360,
  11729668028500811840,
  651851513155654953289930033669912963283938372381643913312414880200408074818121310264384823360,
  11729668028500811840,
  651851513155654953289930033669912963283938372381643913312414880200408074815816030205124550720,
  9424387969240539200,
  651851513155654953289930033669912963283938372381643913312414880200408074818121310264384823360,
  11729668028500811840,
  651851513155654953289930033669912963283938372381643913312414880200408074815816030205124550720,
  9424387969240539200,
  651851513155654953289930033669912963283938372381643913312414880200408074668278106412467101760,
  9388367968314597440,
  651851513155654953289930033669912963283938372381643913312414880200408074818121310264384823360,
  11729668028500811840,
  651851513155654953289930033669912963283938372381643913312414880200408074670583386471727374400,
  11693648027574870080,
  651851513155654953289930033669912963283938372381643913312414880200408074818121310264384823360,
  11729668028500811840,
  651851513155654953289930033669912963283938372381643913312414880200408074670583386471727374400,
  11693648027574870080,
  651851513155654953289930033669912963283938372381643913312414880200408074815816030205124550720,
  9424387969240539200,
  651851513155654953289930033669912963283938372381643913312414880200408074818121310264384823360,
  11729668028500811840,
  651851513155654953289930033669912963283938372381643913312414880200408074818121310264384823360,
  11729668028500811840,
  651851513155654953289930033669912963283938372381643913312414880200408074815816030205124550720,
  9424387969240539200,
  651851513155654953289930033669912963283938372381643913312414880200408074818121310264384823360,
  11729668028500811840,
  651851513155654953289930033669912963283938372381643913312414880200408074818121310264384823360,
  11729668028500811840,
  651851513155654953289930033669912963283938372381643913312414880200408074818121310264384823360,
  11729668028500811840,
  651851513155654953289930033669912963283938372381643913312414880200408074670583386471727374400,
  11693648027574870080,
  651851513155654953289930033669912963283938372381643913312414880200408074815816030205124550720,
  9424387969240539200,
  651851513155654953289930033669912963283938372381643913312414880200408074668278106412467101760,
  9388367968314597440,
  651851513155654953289930033669912963283938372381643913312414880200408074818121310264384823360,
  11729668028500811840,
  651851513155654953289930033669912963283938372381643913312414880200408074670583386471727374400,
  11693648027574870080,
  651851513155654953289930033669912963283938372381643913312414880200408074818121310264384823360,
  11729668028500811840,
  651851513155654953289930033669912963283938372381643913312414880200408074815816030205124550720,
  9424387969240539200,
  651851513155654953289930033669912963283938372381643913312414880200408074818121310264384823360,
  11729668028500811840,
  651851513155654953289930033669912963283938372381643913312414880200408074818121310264384823360,
  11729668028500811840,
  651851513155654953289930033669912963283938372381643913312414880200408074815816030205124550720,
  9424387969240539200,
  651851513155654953289930033669912963283938372381643913312414880200408074818121310264384823360,
  11729668028500811840,
  159144164270537409517135698318934416300632376799464378430884879611869932897574965868240960,
  11729668026353328192,
  159144164270537409517135698318934416300632376799464378430884879611869785359651173210792000,
  11693648025427386432,
  159144164270537409517135698318934416300632376799464378430884879611869932897574965868240960,
  11729668026353328192,
  159144164270537409517135698318934416300632376799464378430884879611869785359651173210792000,
  11693648025427386432,
  159144164270537409517135698318934416300632376799464378430884879611869932897574965868240960,
  11729668026353328192,
  159144164270537409517135698318934416300632376799464378430884879611869932897574965868240960,
  11729668026353328192,
  159144407163434487422775455308541113564943915921193492097133004876623433271536238988107840,
  11740363937425399872,
  159144407163434487422775455308541113564943915921193492097133004876623426355696061207289920,
  9434520928245260352,
  159143921496211430990507725443064407685217255319483729062252691923520998546590837592825920,
  11729667888947929152,
  159144407163434487422775455308541113564943915921193492097133004876623285733612446330658880,
  11704343936499458112,
  159144407163434487422775455308541113564943915921193492097133004876623433271536238988107840,
  11740363937425399872,
  159144407163434487422775455308541113564943915921193492097133004876623278817772268549840960,
  9398500927319318592,
  159144407163434487422775455308541113564943915921193492097133004876623426355696061207289920,
  9434520928245260352,
  159143921496211430990507725443064407685217255319483729062252691923520851008667044935376960,
  11693647888021987392,
  159143921496211430990507725443064407685217255319483729062252691923520998546590837592825920,
  11729667888947929152,
  159144407163434487422775455308541113564943915921193492097133004876623285733612446330658880,
  11704343936499458112,
  159144407163434487422775455308541113564943915921193492097133004876623433271536238988107840,
  11740363937425399872,
  159144407163434487422775455308541113564943915921193492097133004876623278817772268549840960,
  9398500927319318592,
  159144407163434487422775455308541113564943915921193492097133004876623426355696061207289920,
  9434520928245260352,
  159143921496211430990507725443064407685217255319483729062252691923520851008667044935376960,
  11693647888021987392,
  159143921496211430990507725443064407685217255319483729062252691923520998546590837592825920,
  11729667888947929152,
  159144407163434487422775455308541113564943915921193492097133004876623433271536238988107840,
  11740363937425399872,
  159144407163434487422775455308541113564943915921193492097133004876623426355696061207289920,
  9434520928245260352,
  159143921496211430990507725443064407685217255319483729062252691923520998546590837592825920,
  11729667888947929152,
  159144164270537409517135698318934416300632376799464378430884879611869932897574965868240960,
  11729668026353328192,
  159144164270537409517135698318934416300632376799464378430884879611869785359651173210792000,
  11693648025427386432,
  159144164270537409517135698318934416300632376799464378430884879611869932897574965868240960,
  11729668026353328192,
  159144164270537409517135698318934416300632376799464378430884879611869785359651173210792000,
  11693648025427386432,
  159144164270537409517135698318934416300632376799464378430884879611869932897574965868240960,
  11729668026353328192,
  159144164270537409517135698318934416300632376799464378430884879611869932897574965868240960,
  11729668026353328192,
  159144164270537409517135698318934416300632376799464378430884879611869932897574965868240960,
  11729668026353328192,
  159144164270537409517135698318934416300632376799464378430884879611869930592294906607968320,
  9424387967093055552,
  159144164270537409517135698318934416300632376799464378430884879611869785359651173210792000,
  11693648025427386432,
  159144164270537409517135698318934416300632376799464378430884879611869932897574965868240960,
  11729668026353328192,
  159144164270537409517135698318934416300632376799464378430884879611869783054371113950519360,
  9388367966167113792,
  159144164270537409517135698318934416300632376799464378430884879611869930592294906607968320,
  9424387967093055552,
  159144164270537409517135698318934416300632376799464378430884879611869785359651173210792000,
  11693648025427386432,
  159144164270537409517135698318934416300632376799464378430884879611869932897574965868240960,
  11729668026353328192,
  159144164270537409517135698318934416300632376799464378430884879611869783054371113950519360,
  9388367966167113792,
  159144164270537409517135698318934416300632376799464378430884879611869930592294906607968320,
  9424387967093055552,
  159144164270537409517135698318934416300632376799464378430884879611869932897574965868240960,
  11729668026353328192,
  159144164270537409517135698318934416300632376799464378430884879611869930592294906607968320,
  9424387967093055552,
  159144407163434487422775455308541113564943915921193492097133004876623433271536238988107840,
  11740363937425399872,
  159144407163434487422775455308541113564943915921193492097133004876623426355696061207289920,
  9434520928245260352,
  159143921496211430990507725443064407685217255319483729062252691923520998546590837592825920,
  11729667888947929152,
  159144407163434487422775455308541113564943915921193492097133004876623285733612446330658880,
  11704343936499458112,
  159144407163434487422775455308541113564943915921193492097133004876623433271536238988107840,
  11740363937425399872,
  159144407163434487422775455308541113564943915921193492097133004876623278817772268549840960,
  9398500927319318592,
  159144407163434487422775455308541113564943915921193492097133004876623426355696061207289920,
  9434520928245260352,
  159143921496211430990507725443064407685217255319483729062252691923520851008667044935376960,
  11693647888021987392,
  159143921496211430990507725443064407685217255319483729062252691923520998546590837592825920,
  11729667888947929152,
  159144407163434487422775455308541113564943915921193492097133004876623285733612446330658880,
  11704343936499458112,
  159144407163434487422775455308541113564943915921193492097133004876623433271536238988107840,
  11740363937425399872,
  159144407163434487422775455308541113564943915921193492097133004876623278817772268549840960,
  9398500927319318592,
  159144407163434487422775455308541113564943915921193492097133004876623426355696061207289920,
  9434520928245260352,
  159143921496211430990507725443064407685217255319483729062252691923520851008667044935376960,
  11693647888021987392,
  159143921496211430990507725443064407685217255319483729062252691923520998546590837592825920,
  11729667888947929152,
  159144407163434487422775455308541113564943915921193492097133004876623433271536238988107840,
  11740363937425399872,
  159144407163434487422775455308541113564943915921193492097133004876623426355696061207289920,
  9434520928245260352,
  159143921496211430990507725443064407685217255319483729062252691923520998546590837592825920,
  11729667888947929152,
  159144164270537409517135698318934416300632376799464378430884879611869932897574965868240960,
  11729668026353328192,
  159144164270537409517135698318934416300632376799464378430884879611869930592294906607968320,
  9424387967093055552,
  159144164270537409517135698318934416300632376799464378430884879611869785359651173210792000,
  11693648025427386432,
  159144164270537409517135698318934416300632376799464378430884879611869932897574965868240960,
  11729668026353328192,
  159144164270537409517135698318934416300632376799464378430884879611869783054371113950519360,
  9388367966167113792,
  159144164270537409517135698318934416300632376799464378430884879611869930592294906607968320,
  9424387967093055552,
  159144164270537409517135698318934416300632376799464378430884879611869785359651173210792000,
  11693648025427386432,
  159144164270537409517135698318934416300632376799464378430884879611869932897574965868240960,
  11729668026353328192,
  159144164270537409517135698318934416300632376799464378430884879611869783054371113950519360,
  9388367966167113792,
  159144164270537409517135698318934416300632376799464378430884879611869930592294906607968320,
  9424387967093055552,
  159144164270537409517135698318934416300632376799464378430884879611869932897574965868240960,
  11729668026353328192,
  159144164270537409517135698318934416300632376799464378430884879611869930592294906607968320,
  9424387967093055552,
  159144407163434487422775455308541113564943915921193492097133004876623426355696061207289920,
  9434520928245260352,
  159143921496211430990507725443064407685217255319483729062252691923520998546590837592825920,
  11729667888947929152,
  159144407163434487422775455308541113564943915921193492097133004876623433271536238988107840,
  11740363937425399872,
  159143921496211430990507725443064407685217255319483729062252691923520996241310778332553280,
  9424387829687656512,
  159144407163434487422775455308541113564943915921193492097133004876623278817772268549840960,
  9398500927319318592,
  159144407163434487422775455308541113564943915921193492097133004876623426355696061207289920,
  9434520928245260352,
  159143921496211430990507725443064407685217255319483729062252691923520851008667044935376960,
  11693647888021987392,
  159143921496211430990507725443064407685217255319483729062252691923520998546590837592825920,
  11729667888947929152,
  159144407163434487422775455308541113564943915921193492097133004876623285733612446330658880,
  11704343936499458112,
  159144407163434487422775455308541113564943915921193492097133004876623433271536238988107840,
  11740363937425399872,
  159143921496211430990507725443064407685217255319483729062252691923520848703386985675104320,
  9388367828761714752,
  159143921496211430990507725443064407685217255319483729062252691923520996241310778332553280,
  9424387829687656512,
  159144407163434487422775455308541113564943915921193492097133004876623278817772268549840960,
  9398500927319318592,
  159144407163434487422775455308541113564943915921193492097133004876623426355696061207289920,
  9434520928245260352,
  159143921496211430990507725443064407685217255319483729062252691923520851008667044935376960,
  11693647888021987392,
  159143921496211430990507725443064407685217255319483729062252691923520998546590837592825920,
  11729667888947929152,
  159144407163434487422775455308541113564943915921193492097133004876623285733612446330658880,
  11704343936499458112,
  159144407163434487422775455308541113564943915921193492097133004876623433271536238988107840,
  11740363937425399872,
  159143921496211430990507725443064407685217255319483729062252691923520848703386985675104320,
  9388367828761714752,
  159143921496211430990507725443064407685217255319483729062252691923520996241310778332553280,
  9424387829687656512,
  159144407163434487422775455308541113564943915921193492097133004876623426355696061207289920,
  9434520928245260352,
  159143921496211430990507725443064407685217255319483729062252691923520998546590837592825920,
  11729667888947929152,
  159144407163434487422775455308541113564943915921193492097133004876623433271536238988107840,
  11740363937425399872,
  159143921496211430990507725443064407685217255319483729062252691923520996241310778332553280,
  9424387829687656512,
  159143921496211430990507725443064407685217255319483729062252691923520998546590837592825920,
  11729667888947929152,
  159143921496211430990507725443064407685217255319483729062252691923520851008667044935376960,
  11693647888021987392,
  159143921496211430990507725443064407685217255319483729062252691923520998546590837592825920,
  11729667888947929152,
  159143921496211430990507725443064407685217255319483729062252691923520851008667044935376960,
  11693647888021987392,
  159143921496211430990507725443064407685217255319483729062252691923520998546590837592825920,
  11729667888947929152,
  159143921496211430990507725443064407685217255319483729062252691923520998546590837592825920,
  11729667888947929152,
  159144164389108508896147482432671104949528794441212842728500817188274498920552110712692800,
  11739801124910932032,
  159144164389108508896147482432671104949528794441212842728500817188274492004711932931874880,
  9433958115730792512,
  159144164270537409517135698318934416300632376799464378430884879611869932897574965868240960,
  11729668026353328192,
  159144164389108508896147482432671104949528794441212842728500817188274351382628318055243840,
  11703781123984990272,
  159144164389108508896147482432671104949528794441212842728500817188274498920552110712692800,
  11739801124910932032,
  159144164389108508896147482432671104949528794441212842728500817188274344466788140274425920,
  9397938114804850752,
  159144164389108508896147482432671104949528794441212842728500817188274492004711932931874880,
  9433958115730792512,
  159144164270537409517135698318934416300632376799464378430884879611869785359651173210792000,
  11693648025427386432,
  159144164270537409517135698318934416300632376799464378430884879611869932897574965868240960,
  11729668026353328192,
  159144164389108508896147482432671104949528794441212842728500817188274351382628318055243840,
  11703781123984990272,
  159144164389108508896147482432671104949528794441212842728500817188274498920552110712692800,
  11739801124910932032,
  159144164389108508896147482432671104949528794441212842728500817188274344466788140274425920,
  9397938114804850752,
  159144164389108508896147482432671104949528794441212842728500817188274492004711932931874880,
  9433958115730792512,
  159144164270537409517135698318934416300632376799464378430884879611869785359651173210792000,
  11693648025427386432,
  159144164270537409517135698318934416300632376799464378430884879611869932897574965868240960,
  11729668026353328192,
  159144164389108508896147482432671104949528794441212842728500817188274498920552110712692800,
  11739801124910932032,
  159144164389108508896147482432671104949528794441212842728500817188274492004711932931874880,
  9433958115730792512,
  159144164270537409517135698318934416300632376799464378430884879611869932897574965868240960,
  11729668026353328192,
  159143921496211430990507725443064407685217255319483729062252691923520998546590837592825920,
  11729667888947929152,
  159143921496211430990507725443064407685217255319483729062252691923520851008667044935376960,
  11693647888021987392,
  159143921496211430990507725443064407685217255319483729062252691923520998546590837592825920,
  11729667888947929152,
  159143921496211430990507725443064407685217255319483729062252691923520851008667044935376960,
  11693647888021987392,
  159143921496211430990507725443064407685217255319483729062252691923520998546590837592825920,
  11729667888947929152,
  159143921496211430990507725443064407685217255319483729062252691923520998546590837592825920,
  11729667888947929152,
  159143921496211430990507725443064407685217255319483729062252691923520998546590837592825920,
  11729667888947929152,
  159143921496211430990507725443064407685217255319483729062252691923520996241310778332553280,
  9424387829687656512,
  159144164270537409517135698318934416300632376799464378430884879611869932897574965868240960,
  11729668026353328192,
  159143921496211430990507725443064407685217255319483729062252691923520851008667044935376960,
  11693647888021987392,
  159143921496211430990507725443064407685217255319483729062252691923520998546590837592825920,
  11729667888947929152,
  159143921496211430990507725443064407685217255319483729062252691923520848703386985675104320,
  9388367828761714752,
  159143921496211430990507725443064407685217255319483729062252691923520996241310778332553280,
  9424387829687656512,
  159144164270537409517135698318934416300632376799464378430884879611869785359651173210792000,
  11693648025427386432,
  159144164270537409517135698318934416300632376799464378430884879611869932897574965868240960,
  11729668026353328192,
  159143921496211430990507725443064407685217255319483729062252691923520851008667044935376960,
  11693647888021987392,
  159143921496211430990507725443064407685217255319483729062252691923520998546590837592825920,
  11729667888947929152,
  159143921496211430990507725443064407685217255319483729062252691923520848703386985675104320,
  9388367828761714752,
  159143921496211430990507725443064407685217255319483729062252691923520996241310778332553280,
  9424387829687656512,
  159144164270537409517135698318934416300632376799464378430884879611869785359651173210792000,
  11693648025427386432,
  159144164270537409517135698318934416300632376799464378430884879611869932897574965868240960,
  11729668026353328192,
  159143921496211430990507725443064407685217255319483729062252691923520998546590837592825920,
  11729667888947929152,
  159143921496211430990507725443064407685217255319483729062252691923520996241310778332553280,
  9424387829687656512,
  159144164270537409517135698318934416300632376799464378430884879611869932897574965868240960,
  11729668026353328192]
def wnT2T3_mat_cert_3 : List Nat := [159144164389108508896147482432671104949528794441212842728500817188274498920552110712692800,
  11739801124910932032,
  159144164389108508896147482432671104949528794441212842728500817188274492004711932931874880,
  9433958115730792512,
  159144164270537409517135698318934416300632376799464378430884879611869932897574965868240960,
  11729668026353328192,
  159144164389108508896147482432671104949528794441212842728500817188274351382628318055243840,
  11703781123984990272,
  159144164389108508896147482432671104949528794441212842728500817188274498920552110712692800,
  11739801124910932032,
  159144164389108508896147482432671104949528794441212842728500817188274344466788140274425920,
  9397938114804850752,
  159144164389108508896147482432671104949528794441212842728500817188274492004711932931874880,
  9433958115730792512,
  159144164270537409517135698318934416300632376799464378430884879611869785359651173210792000,
  11693648025427386432,
  159144164270537409517135698318934416300632376799464378430884879611869932897574965868240960,
  11729668026353328192,
  159144164389108508896147482432671104949528794441212842728500817188274351382628318055243840,
  11703781123984990272,
  159144164389108508896147482432671104949528794441212842728500817188274498920552110712692800,
  11739801124910932032,
  159144164389108508896147482432671104949528794441212842728500817188274344466788140274425920,
  9397938114804850752,
  159144164389108508896147482432671104949528794441212842728500817188274492004711932931874880,
  9433958115730792512,
  159144164270537409517135698318934416300632376799464378430884879611869785359651173210792000,
  11693648025427386432,
  159144164270537409517135698318934416300632376799464378430884879611869932897574965868240960,
  11729668026353328192,
  159144164389108508896147482432671104949528794441212842728500817188274498920552110712692800,
  11739801124910932032,
  159144164389108508896147482432671104949528794441212842728500817188274492004711932931874880,
  9433958115730792512,
  159144164270537409517135698318934416300632376799464378430884879611869932897574965868240960,
  11729668026353328192,
  159143921496211430990507725443064407685217255319483729062252691923520998546590837592825920,
  11729667888947929152,
  159143921496211430990507725443064407685217255319483729062252691923520996241310778332553280,
  9424387829687656512,
  159144164270537409517135698318934416300632376799464378430884879611869932897574965868240960,
  11729668026353328192,
  159143921496211430990507725443064407685217255319483729062252691923520851008667044935376960,
  11693647888021987392,
  159143921496211430990507725443064407685217255319483729062252691923520998546590837592825920,
  11729667888947929152,
  159143921496211430990507725443064407685217255319483729062252691923520848703386985675104320,
  9388367828761714752,
  159143921496211430990507725443064407685217255319483729062252691923520996241310778332553280,
  9424387829687656512,
  159144164270537409517135698318934416300632376799464378430884879611869785359651173210792000,
  11693648025427386432,
  159144164270537409517135698318934416300632376799464378430884879611869932897574965868240960,
  11729668026353328192,
  159143921496211430990507725443064407685217255319483729062252691923520851008667044935376960,
  11693647888021987392,
  159143921496211430990507725443064407685217255319483729062252691923520998546590837592825920,
  11729667888947929152,
  159143921496211430990507725443064407685217255319483729062252691923520848703386985675104320,
  9388367828761714752,
  159143921496211430990507725443064407685217255319483729062252691923520996241310778332553280,
  9424387829687656512,
  159144164270537409517135698318934416300632376799464378430884879611869785359651173210792000,
  11693648025427386432,
  159144164270537409517135698318934416300632376799464378430884879611869932897574965868240960,
  11729668026353328192,
  159143921496211430990507725443064407685217255319483729062252691923520998546590837592825920,
  11729667888947929152,
  159143921496211430990507725443064407685217255319483729062252691923520996241310778332553280,
  9424387829687656512,
  159144164270537409517135698318934416300632376799464378430884879611869932897574965868240960,
  11729668026353328192,
  159144164389108508896147482432671104949528794441212842728500817188274492004711932931874880,
  9433958115730792512,
  159144164270537409517135698318934416300632376799464378430884879611869932897574965868240960,
  11729668026353328192,
  159144164389108508896147482432671104949528794441212842728500817188274498920552110712692800,
  11739801124910932032,
  159144407163434487422775455308541113564943915921193492097133004876623433271536238988107840,
  11740363937425399872,
  159144164270537409517135698318934416300632376799464378430884879611869930592294906607968320,
  9424387967093055552,
  159144407163434487422775455308541113564943915921193492097133004876623426355696061207289920,
  9434520928245260352,
  159144164389108508896147482432671104949528794441212842728500817188274344466788140274425920,
  9397938114804850752,
  159144164389108508896147482432671104949528794441212842728500817188274492004711932931874880,
  9433958115730792512,
  159144164270537409517135698318934416300632376799464378430884879611869785359651173210792000,
  11693648025427386432,
  159144164270537409517135698318934416300632376799464378430884879611869932897574965868240960,
  11729668026353328192,
  159144164389108508896147482432671104949528794441212842728500817188274351382628318055243840,
  11703781123984990272,
  159144164389108508896147482432671104949528794441212842728500817188274498920552110712692800,
  11739801124910932032,
  159144407163434487422775455308541113564943915921193492097133004876623285733612446330658880,
  11704343936499458112,
  159144407163434487422775455308541113564943915921193492097133004876623433271536238988107840,
  11740363937425399872,
  159144164270537409517135698318934416300632376799464378430884879611869783054371113950519360,
  9388367966167113792,
  159144164270537409517135698318934416300632376799464378430884879611869930592294906607968320,
  9424387967093055552,
  159144407163434487422775455308541113564943915921193492097133004876623278817772268549840960,
  9398500927319318592,
  159144407163434487422775455308541113564943915921193492097133004876623426355696061207289920,
  9434520928245260352,
  159144164389108508896147482432671104949528794441212842728500817188274344466788140274425920,
  9397938114804850752,
  159144164389108508896147482432671104949528794441212842728500817188274492004711932931874880,
  9433958115730792512,
  159144164270537409517135698318934416300632376799464378430884879611869785359651173210792000,
  11693648025427386432,
  159144164270537409517135698318934416300632376799464378430884879611869932897574965868240960,
  11729668026353328192,
  159144164389108508896147482432671104949528794441212842728500817188274351382628318055243840,
  11703781123984990272,
  159144164389108508896147482432671104949528794441212842728500817188274498920552110712692800,
  11739801124910932032,
  159144407163434487422775455308541113564943915921193492097133004876623285733612446330658880,
  11704343936499458112,
  159144407163434487422775455308541113564943915921193492097133004876623433271536238988107840,
  11740363937425399872,
  159144164270537409517135698318934416300632376799464378430884879611869783054371113950519360,
  9388367966167113792,
  159144164270537409517135698318934416300632376799464378430884879611869930592294906607968320,
  9424387967093055552,
  159144407163434487422775455308541113564943915921193492097133004876623278817772268549840960,
  9398500927319318592,
  159144407163434487422775455308541113564943915921193492097133004876623426355696061207289920,
  9434520928245260352,
  159144164389108508896147482432671104949528794441212842728500817188274492004711932931874880,
  9433958115730792512,
  159144164270537409517135698318934416300632376799464378430884879611869932897574965868240960,
  11729668026353328192,
  159144164389108508896147482432671104949528794441212842728500817188274498920552110712692800,
  11739801124910932032,
  159144164270537409517135698318934416300632376799464378430884879611869932897574965868240960,
  11729668026353328192,
  159144164270537409517135698318934416300632376799464378430884879611869930592294906607968320,
  9424387967093055552,
  159144164270537409517135698318934416300632376799464378430884879611869930592294906607968320,
  9424387967093055552,
  159143921555496980680013617499932752009665464140357961211060660711723281558079410015051840,
  11739798514208350272,
  159143921555496980680013617499932752009665464140357961211060660711723134020155617357602880,
  11703778513282408512,
  159143921555496980680013617499932752009665464140357961211060660711723276947519291494506560,
  9433955642433609792,
  159143921555496980680013617499932752009665464140357961211060660711723129409595498837057600,
  9397935641507668032,
  159143921496211430990507725443064407685217255319483729062252691923520998546590837592825920,
  11729667888947929152,
  159143921496211430990507725443064407685217255319483729062252691923520851008667044935376960,
  11693647888021987392,
  159144164389108508896147482432671104949528794441212842728500817188274498920552110712692800,
  11739801124910932032,
  159144164389108508896147482432671104949528794441212842728500817188274492004711932931874880,
  9433958115730792512,
  159143921496211430990507725443064407685217255319483729062252691923520998546590837592825920,
  11729667888947929152,
  159144164389108508896147482432671104949528794441212842728500817188274498920552110712692800,
  11739801124910932032,
  159144164389108508896147482432671104949528794441212842728500817188274492004711932931874880,
  9433958115730792512,
  159143921496211430990507725443064407685217255319483729062252691923520998546590837592825920,
  11729667888947929152,
  159143921496211430990507725443064407685217255319483729062252691923520996241310778332553280,
  9424387829687656512,
  159143921496211430990507725443064407685217255319483729062252691923520848703386985675104320,
  9388367828761714752,
  159143921496211430990507725443064407685217255319483729062252691923520998546590837592825920,
  11729667888947929152,
  159143921496211430990507725443064407685217255319483729062252691923520851008667044935376960,
  11693647888021987392,
  159143921496211430990507725443064407685217255319483729062252691923520996241310778332553280,
  9424387829687656512,
  159143921496211430990507725443064407685217255319483729062252691923520998546590837592825920,
  11729667888947929152,
  159143921496211430990507725443064407685217255319483729062252691923520996241310778332553280,
  9424387829687656512,
  159143921496211430990507725443064407685217255319483729062252691923520998546590837592825920,
  11729667888947929152,
  159144164389108508896147482432671104949528794441212842728500817188274492004711932931874880,
  9433958115730792512,
  159144164389108508896147482432671104949528794441212842728500817188274344466788140274425920,
  9397938114804850752,
  159143921496211430990507725443064407685217255319483729062252691923520996241310778332553280,
  9424387829687656512,
  159143921496211430990507725443064407685217255319483729062252691923520848703386985675104320,
  9388367828761714752,
  159144164389108508896147482432671104949528794441212842728500817188274498920552110712692800,
  11739801124910932032,
  159144164389108508896147482432671104949528794441212842728500817188274351382628318055243840,
  11703781123984990272,
  159143921496211430990507725443064407685217255319483729062252691923520998546590837592825920,
  11729667888947929152,
  159143921496211430990507725443064407685217255319483729062252691923520851008667044935376960,
  11693647888021987392,
  159144164389108508896147482432671104949528794441212842728500817188274492004711932931874880,
  9433958115730792512,
  159143921496211430990507725443064407685217255319483729062252691923520996241310778332553280,
  9424387829687656512,
  159144164389108508896147482432671104949528794441212842728500817188274498920552110712692800,
  11739801124910932032,
  159143921496211430990507725443064407685217255319483729062252691923520998546590837592825920,
  11729667888947929152,
  159144164389108508896147482432671104949528794441212842728500817188274492004711932931874880,
  9433958115730792512,
  159143921496211430990507725443064407685217255319483729062252691923520996241310778332553280,
  9424387829687656512,
  159144164389108508896147482432671104949528794441212842728500817188274498920552110712692800,
  11739801124910932032,
  159143921496211430990507725443064407685217255319483729062252691923520998546590837592825920,
  11729667888947929152,
  159143921496211430990507725443064407685217255319483729062252691923520996241310778332553280,
  9424387829687656512,
  159143921496211430990507725443064407685217255319483729062252691923520848703386985675104320,
  9388367828761714752,
  159143921496211430990507725443064407685217255319483729062252691923520998546590837592825920,
  11729667888947929152,
  159143921496211430990507725443064407685217255319483729062252691923520851008667044935376960,
  11693647888021987392,
  159143921496211430990507725443064407685217255319483729062252691923520996241310778332553280,
  9424387829687656512,
  159143921496211430990507725443064407685217255319483729062252691923520998546590837592825920,
  11729667888947929152,
  159143921496211430990507725443064407685217255319483729062252691923520996241310778332553280,
  9424387829687656512,
  159143921496211430990507725443064407685217255319483729062252691923520998546590837592825920,
  11729667888947929152,
  159143921496211430990507725443064407685217255319483729062252691923520998546590837592825920,
  11729667888947929152,
  159143921496211430990507725443064407685217255319483729062252691923520851008667044935376960,
  11693647888021987392,
  159143921496211430990507725443064407685217255319483729062252691923520998546590837592825920,
  11729667888947929152,
  159143921496211430990507725443064407685217255319483729062252691923520998546590837592825920,
  11729667888947929152,
  159144164389108508896147482432671104949528794441212842728500817188274492004711932931874880,
  9433958115730792512,
  159144164389108508896147482432671104949528794441212842728500817188274344466788140274425920,
  9397938114804850752,
  159143921496211430990507725443064407685217255319483729062252691923520996241310778332553280,
  9424387829687656512,
  159143921496211430990507725443064407685217255319483729062252691923520848703386985675104320,
  9388367828761714752,
  159144164389108508896147482432671104949528794441212842728500817188274498920552110712692800,
  11739801124910932032,
  159144164389108508896147482432671104949528794441212842728500817188274351382628318055243840,
  11703781123984990272,
  159143921496211430990507725443064407685217255319483729062252691923520998546590837592825920,
  11729667888947929152,
  159143921496211430990507725443064407685217255319483729062252691923520851008667044935376960,
  11693647888021987392,
  159144164389108508896147482432671104949528794441212842728500817188274492004711932931874880,
  9433958115730792512,
  159143921496211430990507725443064407685217255319483729062252691923520996241310778332553280,
  9424387829687656512,
  159144164389108508896147482432671104949528794441212842728500817188274498920552110712692800,
  11739801124910932032,
  159143921496211430990507725443064407685217255319483729062252691923520998546590837592825920,
  11729667888947929152,
  159144164389108508896147482432671104949528794441212842728500817188274492004711932931874880,
  9433958115730792512,
  159143921496211430990507725443064407685217255319483729062252691923520996241310778332553280,
  9424387829687656512,
  159144164389108508896147482432671104949528794441212842728500817188274498920552110712692800,
  11739801124910932032,
  159143921496211430990507725443064407685217255319483729062252691923520998546590837592825920,
  11729667888947929152,
  159143921496211430990507725443064407685217255319483729062252691923520998546590837592825920,
  11729667888947929152,
  159143921496211430990507725443064407685217255319483729062252691923520851008667044935376960,
  11693647888021987392,
  159143921496211430990507725443064407685217255319483729062252691923520998546590837592825920,
  11729667888947929152,
  159143921496211430990507725443064407685217255319483729062252691923520998546590837592825920,
  11729667888947929152,
  159143921496211430990507725443064407685217255319483729062252691923520998546590837592825920,
  11729667888947929152,
  159143921496211430990507725443064407685217255319483729062252691923520851008667044935376960,
  11693647888021987392,
  159143921496211430990507725443064407685217255319483729062252691923520998546590837592825920,
  11729667888947929152,
  159143921496211430990507725443064407685217255319483729062252691923520998546590837592825920,
  11729667888947929152,
  159144407104148937733269563251672769240495707100319259948325036088421150260047666565881920,
  11740361464128217152,
  159144407104148937733269563251672769240495707100319259948325036088421002722123873908432960,
  11704341463202275392,
  159144407104148937733269563251672769240495707100319259948325036088421145649487548045336640,
  9434518592353476672,
  159144407104148937733269563251672769240495707100319259948325036088420998111563755387887680,
  9398498591427534912,
  159144164270537409517135698318934416300632376799464378430884879611869932897574965868240960,
  11729668026353328192,
  159144164270537409517135698318934416300632376799464378430884879611869785359651173210792000,
  11693648025427386432,
  159144407163434487422775455308541113564943915921193492097133004876623433271536238988107840,
  11740363937425399872,
  159144407163434487422775455308541113564943915921193492097133004876623426355696061207289920,
  9434520928245260352,
  159144164270537409517135698318934416300632376799464378430884879611869932897574965868240960,
  11729668026353328192,
  159144407163434487422775455308541113564943915921193492097133004876623433271536238988107840,
  11740363937425399872,
  159144407163434487422775455308541113564943915921193492097133004876623426355696061207289920,
  9434520928245260352,
  159144164270537409517135698318934416300632376799464378430884879611869932897574965868240960,
  11729668026353328192,
  159144164270537409517135698318934416300632376799464378430884879611869930592294906607968320,
  9424387967093055552,
  159144164270537409517135698318934416300632376799464378430884879611869783054371113950519360,
  9388367966167113792,
  159144164270537409517135698318934416300632376799464378430884879611869932897574965868240960,
  11729668026353328192,
  159144164270537409517135698318934416300632376799464378430884879611869785359651173210792000,
  11693648025427386432,
  159144164270537409517135698318934416300632376799464378430884879611869932897574965868240960,
  11729668026353328192,
  159144164270537409517135698318934416300632376799464378430884879611869785359651173210792000,
  11693648025427386432,
  159144164270537409517135698318934416300632376799464378430884879611869930592294906607968320,
  9424387967093055552,
  159144164270537409517135698318934416300632376799464378430884879611869932897574965868240960,
  11729668026353328192,
  159144164270537409517135698318934416300632376799464378430884879611869932897574965868240960,
  11729668026353328192,
  159144164270537409517135698318934416300632376799464378430884879611869930592294906607968320,
  9424387967093055552,
  159144164270537409517135698318934416300632376799464378430884879611869932897574965868240960,
  11729668026353328192,
  159144164270537409517135698318934416300632376799464378430884879611869932897574965868240960,
  11729668026353328192,
  159144407163434487422775455308541113564943915921193492097133004876623426355696061207289920,
  9434520928245260352,
  159144407163434487422775455308541113564943915921193492097133004876623278817772268549840960,
  9398500927319318592,
  159144164270537409517135698318934416300632376799464378430884879611869930592294906607968320,
  9424387967093055552,
  159144164270537409517135698318934416300632376799464378430884879611869783054371113950519360,
  9388367966167113792,
  159144407163434487422775455308541113564943915921193492097133004876623433271536238988107840,
  11740363937425399872,
  159144407163434487422775455308541113564943915921193492097133004876623285733612446330658880,
  11704343936499458112,
  159144407163434487422775455308541113564943915921193492097133004876623433271536238988107840,
  11740363937425399872,
  159144407163434487422775455308541113564943915921193492097133004876623285733612446330658880,
  11704343936499458112,
  159144164270537409517135698318934416300632376799464378430884879611869932897574965868240960,
  11729668026353328192,
  159144164270537409517135698318934416300632376799464378430884879611869785359651173210792000,
  11693648025427386432,
  159144407163434487422775455308541113564943915921193492097133004876623426355696061207289920,
  9434520928245260352,
  159144407163434487422775455308541113564943915921193492097133004876623278817772268549840960,
  9398500927319318592,
  159144407163434487422775455308541113564943915921193492097133004876623426355696061207289920,
  9434520928245260352,
  159144164270537409517135698318934416300632376799464378430884879611869930592294906607968320,
  9424387967093055552,
  159144407163434487422775455308541113564943915921193492097133004876623433271536238988107840,
  11740363937425399872,
  159144407163434487422775455308541113564943915921193492097133004876623433271536238988107840,
  11740363937425399872,
  159144164270537409517135698318934416300632376799464378430884879611869932897574965868240960,
  11729668026353328192,
  159144407163434487422775455308541113564943915921193492097133004876623426355696061207289920,
  9434520928245260352,
  159144407163434487422775455308541113564943915921193492097133004876623426355696061207289920,
  9434520928245260352,
  159144164270537409517135698318934416300632376799464378430884879611869930592294906607968320,
  9424387967093055552,
  159144407163434487422775455308541113564943915921193492097133004876623433271536238988107840,
  11740363937425399872,
  159144407163434487422775455308541113564943915921193492097133004876623433271536238988107840,
  11740363937425399872,
  159144164270537409517135698318934416300632376799464378430884879611869932897574965868240960,
  11729668026353328192,
  159144407163434487422775455308541113564943915921193492097133004876623426355696061207289920,
  9434520928245260352,
  159144164270537409517135698318934416300632376799464378430884879611869930592294906607968320,
  9424387967093055552,
  159144164270537409517135698318934416300632376799464378430884879611869783054371113950519360,
  9388367966167113792,
  159144164270537409517135698318934416300632376799464378430884879611869932897574965868240960,
  11729668026353328192,
  159144164270537409517135698318934416300632376799464378430884879611869785359651173210792000,
  11693648025427386432,
  159144164270537409517135698318934416300632376799464378430884879611869932897574965868240960,
  11729668026353328192,
  159144164270537409517135698318934416300632376799464378430884879611869785359651173210792000,
  11693648025427386432,
  159144164270537409517135698318934416300632376799464378430884879611869930592294906607968320,
  9424387967093055552,
  159144164270537409517135698318934416300632376799464378430884879611869932897574965868240960,
  11729668026353328192]
def wnT2T3_mat_cert_4 : List Nat := [159144164270537409517135698318934416300632376799464378430884879611869932897574965868240960,
  11729668026353328192,
  159144164270537409517135698318934416300632376799464378430884879611869930592294906607968320,
  9424387967093055552,
  159144164270537409517135698318934416300632376799464378430884879611869932897574965868240960,
  11729668026353328192,
  159144164270537409517135698318934416300632376799464378430884879611869932897574965868240960,
  11729668026353328192,
  159144164270537409517135698318934416300632376799464378430884879611869932897574965868240960,
  11729668026353328192,
  159144164270537409517135698318934416300632376799464378430884879611869785359651173210792000,
  11693648025427386432,
  159144164270537409517135698318934416300632376799464378430884879611869930592294906607968320,
  9424387967093055552,
  159144164270537409517135698318934416300632376799464378430884879611869783054371113950519360,
  9388367966167113792,
  159144164270537409517135698318934416300632376799464378430884879611869932897574965868240960,
  11729668026353328192,
  159144164270537409517135698318934416300632376799464378430884879611869785359651173210792000,
  11693648025427386432,
  159144164270537409517135698318934416300632376799464378430884879611869932897574965868240960,
  11729668026353328192,
  159144164270537409517135698318934416300632376799464378430884879611869930592294906607968320,
  9424387967093055552,
  159144164270537409517135698318934416300632376799464378430884879611869932897574965868240960,
  11729668026353328192,
  159144164270537409517135698318934416300632376799464378430884879611869932897574965868240960,
  11729668026353328192,
  159144164270537409517135698318934416300632376799464378430884879611869930592294906607968320,
  9424387967093055552,
  159144164270537409517135698318934416300632376799464378430884879611869932897574965868240960,
  11729668026353328192,
  159144407163434487422775455308541113564943915921193492097133004876623426355696061207289920,
  9434520928245260352,
  159144407163434487422775455308541113564943915921193492097133004876623278817772268549840960,
  9398500927319318592,
  159144164270537409517135698318934416300632376799464378430884879611869930592294906607968320,
  9424387967093055552,
  159144164270537409517135698318934416300632376799464378430884879611869783054371113950519360,
  9388367966167113792,
  159144407163434487422775455308541113564943915921193492097133004876623433271536238988107840,
  11740363937425399872,
  159144407163434487422775455308541113564943915921193492097133004876623285733612446330658880,
  11704343936499458112,
  159144407163434487422775455308541113564943915921193492097133004876623433271536238988107840,
  11740363937425399872,
  159144407163434487422775455308541113564943915921193492097133004876623285733612446330658880,
  11704343936499458112,
  159144164270537409517135698318934416300632376799464378430884879611869932897574965868240960,
  11729668026353328192,
  159144164270537409517135698318934416300632376799464378430884879611869785359651173210792000,
  11693648025427386432,
  159144407163434487422775455308541113564943915921193492097133004876623426355696061207289920,
  9434520928245260352,
  159144407163434487422775455308541113564943915921193492097133004876623278817772268549840960,
  9398500927319318592,
  159144407163434487422775455308541113564943915921193492097133004876623426355696061207289920,
  9434520928245260352,
  159144164270537409517135698318934416300632376799464378430884879611869930592294906607968320,
  9424387967093055552,
  159144407163434487422775455308541113564943915921193492097133004876623433271536238988107840,
  11740363937425399872,
  159144407163434487422775455308541113564943915921193492097133004876623433271536238988107840,
  11740363937425399872,
  159144164270537409517135698318934416300632376799464378430884879611869932897574965868240960,
  11729668026353328192,
  159144407163434487422775455308541113564943915921193492097133004876623426355696061207289920,
  9434520928245260352,
  159144407163434487422775455308541113564943915921193492097133004876623426355696061207289920,
  9434520928245260352,
  159144164270537409517135698318934416300632376799464378430884879611869930592294906607968320,
  9424387967093055552,
  159144407163434487422775455308541113564943915921193492097133004876623433271536238988107840,
  11740363937425399872,
  159144407163434487422775455308541113564943915921193492097133004876623433271536238988107840,
  11740363937425399872,
  159144164270537409517135698318934416300632376799464378430884879611869932897574965868240960,
  11729668026353328192,
  159144407163434487422775455308541113564943915921193492097133004876623426355696061207289920,
  9434520928245260352,
  159144164270537409517135698318934416300632376799464378430884879611869932897574965868240960,
  11729668026353328192,
  159144164270537409517135698318934416300632376799464378430884879611869785359651173210792000,
  11693648025427386432,
  159144164270537409517135698318934416300632376799464378430884879611869930592294906607968320,
  9424387967093055552,
  159144164270537409517135698318934416300632376799464378430884879611869783054371113950519360,
  9388367966167113792,
  159144164270537409517135698318934416300632376799464378430884879611869932897574965868240960,
  11729668026353328192,
  159144164270537409517135698318934416300632376799464378430884879611869785359651173210792000,
  11693648025427386432,
  159144164270537409517135698318934416300632376799464378430884879611869932897574965868240960,
  11729668026353328192,
  159144164270537409517135698318934416300632376799464378430884879611869930592294906607968320,
  9424387967093055552,
  159144164270537409517135698318934416300632376799464378430884879611869932897574965868240960,
  11729668026353328192,
  159144164270537409517135698318934416300632376799464378430884879611869932897574965868240960,
  11729668026353328192,
  159144164270537409517135698318934416300632376799464378430884879611869930592294906607968320,
  9424387967093055552,
  159144164270537409517135698318934416300632376799464378430884879611869932897574965868240960,
  11729668026353328192,
  159144164270537409517135698318934416300632376799464378430884879611869932897574965868240960,
  11729668026353328192,
  159144164270537409517135698318934416300632376799464378430884879611869785359651173210792000,
  11693648025427386432,
  159144407163434487422775455308541113564943915921193492097133004876623426355696061207289920,
  9434520928245260352,
  159144407163434487422775455308541113564943915921193492097133004876623278817772268549840960,
  9398500927319318592,
  159144407163434487422775455308541113564943915921193492097133004876623433271536238988107840,
  11740363937425399872,
  159144407163434487422775455308541113564943915921193492097133004876623285733612446330658880,
  11704343936499458112,
  159144164270537409517135698318934416300632376799464378430884879611869932897574965868240960,
  11729668026353328192,
  159144407163434487422775455308541113564943915921193492097133004876623426355696061207289920,
  9434520928245260352,
  159144407163434487422775455308541113564943915921193492097133004876623433271536238988107840,
  11740363937425399872,
  159144164270537409517135698318934416300632376799464378430884879611869932897574965868240960,
  11729668026353328192,
  159144407163434487422775455308541113564943915921193492097133004876623426355696061207289920,
  9434520928245260352,
  159144407163434487422775455308541113564943915921193492097133004876623433271536238988107840,
  11740363937425399872,
  1173555523178694141205689339555085333190659695524778240608127842627348169062725761503138160704,
  665004551793879556160,
  1173555523178694141205689339555085333190659695524778240608127842627348169505339532881110507584,
  812578504381408485440,
  912751260833619469473132402510922135508538882748236340018869485720945038572548964018947891264,
  664283984690395488320,
  912751260833619469473132402510922135508538882748236340018869485720945038720086887811605340224,
  811821908483052937280,
  1173555523178694141205689339555085333190659695524778240608127842627348169505339532881110507584,
  812578504381408485440,
  1173555523178694141205689339555085333190659695524778240608127842627348169062725761503138160704,
  665004551793879556160,
  912751260833619469473132402510922135508538882748236340018869485720945038572548964018947891264,
  664283984690395488320,
  912751260833619469473132402510922135508538882748236340018869485720945038720086887811605340224,
  811821908483052937280,
  912751260833619469473132402510922135508538882748236340018869485720945038720086887811605340224,
  811821908483052937280,
  1173555523178694141205689339555085333190659695524778240608127842627348169505339532881110507584,
  812578504381408485440,
  1173555523178694141205689339555085333190659695524778240608127842627348169062725761503138160704,
  665004551793879556160,
  912751260833619469473132402510922135508538882748236340018869485720945038720086887811605340224,
  811821908483052937280,
  1173555523178694141205689339555085333190659695524778240608127842627348169062725761503138160704,
  665004551793879556160,
  1173555523178694141205689339555085333190659695524778240608127842627348169505339532881110507584,
  812578504381408485440,
  912751260833619469473132402510922135508538882748236340018869485720945038572548964018947891264,
  664283984690395488320,
  912751260833619469473132402510922135508538882748236340018869485720945038720086887811605340224,
  811821908483052937280,
  1173555523178694141205689339555085333190659695524778240608127842627348169505339532881110507584,
  812578504381408485440,
  1173555523178694141205689339555085333190659695524778240608127842627348169062725761503138160704,
  665004551793879556160,
  912751260833619469473132402510922135508538882748236340018869485720945038572548964018947891264,
  664283984690395488320,
  912751260833619469473132402510922135508538882748236340018869485720945038720086887811605340224,
  811821908483052937280,
  912751260833619469473132402510922135508538882748236340018869485720945038720086887811605340224,
  811821908483052937280,
  1173555523178694141205689339555085333190659695524778240608127842627348169505339532881110507584,
  812578504381408485440,
  1173555523178694141205689339555085333190659695524778240608127842627348169062725761503138160704,
  665004551793879556160,
  912751260833619469473132402510922135508538882748236340018869485720945038720086887811605340224,
  811821908483052937280,
  1173555523178694141205689339555085333190659695524778240608127842627348169062725761503138160704,
  665004551793879556160,
  1173555523178694141205689339555085333190659695524778240608127842627348169505339532881110507584,
  812578504381408485440,
  1173555523178694141205689339555085333190659695524778240608127842627348169060420481443877888064,
  665003988981365088320,
  1173555523178694141205689339555085333190659695524778240608127842627348169503034252821850234944,
  812577941568894017600,
  912751260833619469473132402510922135508538882748236340018869485720945038572548964018947891264,
  664283984690395488320,
  912751260833619469473132402510922135508538882748236340018869485720945038720086887811605340224,
  811821908483052937280,
  912751260833619469473132402510922135508538882748236340018869485720945038570243683959687618624,
  664283421877881020480,
  912751260833619469473132402510922135508538882748236340018869485720945038717781607752345067584,
  811821345670538469440,
  1173555523178694141205689339555085333190659695524778240608127842627348169505339532881110507584,
  812578504381408485440,
  1173555523178694141205689339555085333190659695524778240608127842627348169062725761503138160704,
  665004551793879556160,
  1173555523178694141205689339555085333190659695524778240608127842627348169503034252821850234944,
  812577941568894017600,
  1173555523178694141205689339555085333190659695524778240608127842627348169060420481443877888064,
  665003988981365088320,
  912751260833619469473132402510922135508538882748236340018869485720945038572548964018947891264,
  664283984690395488320,
  912751260833619469473132402510922135508538882748236340018869485720945038720086887811605340224,
  811821908483052937280,
  912751260833619469473132402510922135508538882748236340018869485720945038570243683959687618624,
  664283421877881020480,
  912751260833619469473132402510922135508538882748236340018869485720945038717781607752345067584,
  811821345670538469440,
  912751260833619469473132402510922135508538882748236340018869485720945038720086887811605340224,
  811821908483052937280,
  912751260833619469473132402510922135508538882748236340018869485720945038717781607752345067584,
  811821345670538469440,
  1173555523178694141205689339555085333190659695524778240608127842627348169505339532881110507584,
  812578504381408485440,
  1173555523178694141205689339555085333190659695524778240608127842627348169062725761503138160704,
  665004551793879556160,
  1173555523178694141205689339555085333190659695524778240608127842627348169503034252821850234944,
  812577941568894017600,
  1173555523178694141205689339555085333190659695524778240608127842627348169060420481443877888064,
  665003988981365088320,
  912751260833619469473132402510922135508538882748236340018869485720945038720086887811605340224,
  811821908483052937280,
  912751260833619469473132402510922135508538882748236340018869485720945038717781607752345067584,
  811821345670538469440,
  652074313237065703120967243322284523961483786746298560445275887592626556765997393692198707264,
  811821899689107398720,
  652074313237065703120967243322284523961483786746298560445275887592626556618459469899541258304,
  664283975896449949760,
  652074313237065703120967243322284523961483786746298560445275887592626556765997393692198707264,
  811821899689107398720,
  652074313237065703120967243322284523961483786746298560445275887592626556765997393692198707264,
  811821899689107398720,
  912878575582140374853524180366447721643604599522840461034534244499029687108636267383731527744,
  664968531792953614400,
  912878575582140374853524180366447721643604599522840461034534244499029687551250038761703874624,
  812542484380482543680,
  652074313237065703120967243322284523961483786746298560445275887592626556618459469899541258304,
  664283975896449949760,
  652074313237065703120967243322284523961483786746298560445275887592626556765997393692198707264,
  811821899689107398720,
  912878575582140374853524180366447721643604599522840461034534244499029687108636267383731527744,
  664968531792953614400,
  912878575582140374853524180366447721643604599522840461034534244499029687551250038761703874624,
  812542484380482543680,
  912878575582140374853524180366447721643604599522840461034534244499029687108636267383731527744,
  664968531792953614400,
  912878575582140374853524180366447721643604599522840461034534244499029687551250038761703874624,
  812542484380482543680,
  652074313237065703120967243322284523961483786746298560445275887592626556765997393692198707264,
  811821899689107398720,
  652074313237065703120967243322284523961483786746298560445275887592626556763692113632938434624,
  811821336876592930880,
  652074313237065703120967243322284523961483786746298560445275887592626556765997393692198707264,
  811821899689107398720,
  652074313237065703120967243322284523961483786746298560445275887592626556618459469899541258304,
  664283975896449949760,
  652074313237065703120967243322284523961483786746298560445275887592626556765997393692198707264,
  811821899689107398720,
  652074313237065703120967243322284523961483786746298560445275887592626556616154189840280985664,
  664283413083935481920,
  652074313237065703120967243322284523961483786746298560445275887592626556763692113632938434624,
  811821336876592930880,
  652074313237065703120967243322284523961483786746298560445275887592626556618459469899541258304,
  664283975896449949760,
  652074313237065703120967243322284523961483786746298560445275887592626556765997393692198707264,
  811821899689107398720,
  652074313237065703120967243322284523961483786746298560445275887592626556765997393692198707264,
  811821899689107398720,
  652074313237065703120967243322284523961483786746298560445275887592626556763692113632938434624,
  811821336876592930880,
  652074313237065703120967243322284523961483786746298560445275887592626556765997393692198707264,
  811821899689107398720,
  912878575582140374853524180366447721643604599522840461034534244499029687108636267383731527744,
  664968531792953614400,
  912878575582140374853524180366447721643604599522840461034534244499029687551250038761703874624,
  812542484380482543680,
  912878575582140374853524180366447721643604599522840461034534244499029687106330987324471255104,
  664967968980439146560,
  912878575582140374853524180366447721643604599522840461034534244499029687548944758702443601984,
  812541921567968075840,
  912878575582140374853524180366447721643604599522840461034534244499029687108636267383731527744,
  664968531792953614400,
  912878575582140374853524180366447721643604599522840461034534244499029687551250038761703874624,
  812542484380482543680,
  652074313237065703120967243322284523961483786746298560445275887592626556618459469899541258304,
  664283975896449949760,
  652074313237065703120967243322284523961483786746298560445275887592626556765997393692198707264,
  811821899689107398720,
  652074313237065703120967243322284523961483786746298560445275887592626556616154189840280985664,
  664283413083935481920,
  652074313237065703120967243322284523961483786746298560445275887592626556763692113632938434624,
  811821336876592930880,
  652074313237065703120967243322284523961483786746298560445275887592626556618459469899541258304,
  664283975896449949760,
  652074313237065703120967243322284523961483786746298560445275887592626556765997393692198707264,
  811821899689107398720,
  912878575582140374853524180366447721643604599522840461034534244499029687108636267383731527744,
  664968531792953614400,
  912878575582140374853524180366447721643604599522840461034534244499029687551250038761703874624,
  812542484380482543680,
  912878575582140374853524180366447721643604599522840461034534244499029687106330987324471255104,
  664967968980439146560,
  912878575582140374853524180366447721643604599522840461034534244499029687548944758702443601984,
  812541921567968075840,
  912878575582140374853524180366447721643604599522840461034534244499029687108636267383731527744,
  664968531792953614400,
  912878575582140374853524180366447721643604599522840461034534244499029687551250038761703874624,
  812542484380482543680,
  912878575582140374853524180366447721643604599522840461034534244499029687108636267383731527744,
  664968531792953614400,
  912878575582140374853524180366447721643604599522840461034534244499029687551250038761703874624,
  812542484380482543680,
  912878575582140374853524180366447721643604599522840461034534244499029687106330987324471255104,
  664967968980439146560,
  912878575582140374853524180366447721643604599522840461034534244499029687548944758702443601984,
  812541921567968075840,
  912878575582140374853524180366447721643604599522840461034534244499029687108636267383731527744,
  664968531792953614400,
  912878575582140374853524180366447721643604599522840461034534244499029687551250038761703874624,
  812542484380482543680,
  652074313237065703120967243322284523961483786746298560445275887592626556765997393692198707264,
  811821899689107398720,
  652074313237065703120967243322284523961483786746298560445275887592626556763692113632938434624,
  811821336876592930880,
  652074313237065703120967243322284523961483786746298560445275887592626556765997393692198707264,
  811821899689107398720,
  652074313237065703120967243322284523961483786746298560445275887592626556618459469899541258304,
  664283975896449949760,
  652074313237065703120967243322284523961483786746298560445275887592626556765997393692198707264,
  811821899689107398720,
  652074313237065703120967243322284523961483786746298560445275887592626556616154189840280985664,
  664283413083935481920,
  652074313237065703120967243322284523961483786746298560445275887592626556763692113632938434624,
  811821336876592930880,
  652074313237065703120967243322284523961483786746298560445275887592626556618459469899541258304,
  664283975896449949760,
  652074313237065703120967243322284523961483786746298560445275887592626556765997393692198707264,
  811821899689107398720,
  652074313237065703120967243322284523961483786746298560445275887592626556765997393692198707264,
  811821899689107398720,
  652074313237065703120967243322284523961483786746298560445275887592626556763692113632938434624,
  811821336876592930880,
  652074313237065703120967243322284523961483786746298560445275887592626556765997393692198707264,
  811821899689107398720,
  912878575582140374853524180366447721643604599522840461034534244499029687108636267383731527744,
  664968531792953614400,
  912878575582140374853524180366447721643604599522840461034534244499029687551250038761703874624,
  812542484380482543680,
  912878575582140374853524180366447721643604599522840461034534244499029687106330987324471255104,
  664967968980439146560,
  912878575582140374853524180366447721643604599522840461034534244499029687548944758702443601984,
  812541921567968075840,
  912878575582140374853524180366447721643604599522840461034534244499029687108636267383731527744,
  664968531792953614400,
  912878575582140374853524180366447721643604599522840461034534244499029687551250038761703874624,
  812542484380482543680,
  652074313237065703120967243322284523961483786746298560445275887592626556618459469899541258304,
  664283975896449949760,
  652074313237065703120967243322284523961483786746298560445275887592626556765997393692198707264,
  811821899689107398720,
  652074313237065703120967243322284523961483786746298560445275887592626556616154189840280985664,
  664283413083935481920,
  652074313237065703120967243322284523961483786746298560445275887592626556763692113632938434624,
  811821336876592930880,
  652074313237065703120967243322284523961483786746298560445275887592626556618459469899541258304,
  664283975896449949760,
  652074313237065703120967243322284523961483786746298560445275887592626556765997393692198707264,
  811821899689107398720,
  912878575582140374853524180366447721643604599522840461034534244499029687108636267383731527744,
  664968531792953614400,
  912878575582140374853524180366447721643604599522840461034534244499029687551250038761703874624,
  812542484380482543680,
  912878575582140374853524180366447721643604599522840461034534244499029687106330987324471255104,
  664967968980439146560,
  912878575582140374853524180366447721643604599522840461034534244499029687548944758702443601984,
  812541921567968075840,
  912878575582140374853524180366447721643604599522840461034534244499029687108636267383731527744,
  664968531792953614400,
  912878575582140374853524180366447721643604599522840461034534244499029687551250038761703874624,
  812542484380482543680,
  912878575582140374853524180366447721643604599522840461034534244499029687108636267383731527744,
  664968531792953614400,
  912878575582140374853524180366447721643604599522840461034534244499029687551250038761703874624,
  812542484380482543680,
  912878575582140374853524180366447721643604599522840461034534244499029687106330987324471255104,
  664967968980439146560,
  912878575582140374853524180366447721643604599522840461034534244499029687548944758702443601984,
  812541921567968075840,
  912878575582140374853524180366447721643604599522840461034534244499029687108636267383731527744,
  664968531792953614400,
  912878575582140374853524180366447721643604599522840461034534244499029687551250038761703874624,
  812542484380482543680,
  652074313237065703120967243322284523961483786746298560445275887592626556765997393692198707264,
  811821899689107398720,
  652074313237065703120967243322284523961483786746298560445275887592626556765997393692198707264,
  811821899689107398720,
  652074313237065703120967243322284523961483786746298560445275887592626556763692113632938434624,
  811821336876592930880,
  652074313237065703120967243322284523961483786746298560445275887592626556618459469899541258304,
  664283975896449949760]
def wnT2T3_mat_cert_5 : List Nat := [652074313237065703120967243322284523961483786746298560445275887592626556765997393692198707264,
  811821899689107398720,
  652074313237065703120967243322284523961483786746298560445275887592626556618459469899541258304,
  664283975896449949760,
  652074313237065703120967243322284523961483786746298560445275887592626556765997393692198707264,
  811821899689107398720,
  652074313237065703120967243322284523961483786746298560445275887592626556616154189840280985664,
  664283413083935481920,
  652074313237065703120967243322284523961483786746298560445275887592626556763692113632938434624,
  811821336876592930880,
  652074313237065703120967243322284523961483786746298560445275887592626556765997393692198707264,
  811821899689107398720,
  652074313237065703120967243322284523961483786746298560445275887592626556765997393692198707264,
  811821899689107398720,
  652074313237065703120967243322284523961483786746298560445275887592626556763692113632938434624,
  811821336876592930880,
  912878575582140374853524180366447721643604599522840461034534244499029687108636267383731527744,
  664968531792953614400,
  912878575582140374853524180366447721643604599522840461034534244499029687551250038761703874624,
  812542484380482543680,
  912878575582140374853524180366447721643604599522840461034534244499029687108636267383731527744,
  664968531792953614400,
  912878575582140374853524180366447721643604599522840461034534244499029687551250038761703874624,
  812542484380482543680,
  912878575582140374853524180366447721643604599522840461034534244499029687106330987324471255104,
  664967968980439146560,
  912878575582140374853524180366447721643604599522840461034534244499029687548944758702443601984,
  812541921567968075840,
  652074313237065703120967243322284523961483786746298560445275887592626556618459469899541258304,
  664283975896449949760,
  652074313237065703120967243322284523961483786746298560445275887592626556765997393692198707264,
  811821899689107398720,
  652074313237065703120967243322284523961483786746298560445275887592626556618459469899541258304,
  664283975896449949760,
  652074313237065703120967243322284523961483786746298560445275887592626556765997393692198707264,
  811821899689107398720,
  652074313237065703120967243322284523961483786746298560445275887592626556616154189840280985664,
  664283413083935481920,
  652074313237065703120967243322284523961483786746298560445275887592626556763692113632938434624,
  811821336876592930880,
  912878575582140374853524180366447721643604599522840461034534244499029687108636267383731527744,
  664968531792953614400,
  912878575582140374853524180366447721643604599522840461034534244499029687551250038761703874624,
  812542484380482543680,
  912878575582140374853524180366447721643604599522840461034534244499029687108636267383731527744,
  664968531792953614400,
  912878575582140374853524180366447721643604599522840461034534244499029687551250038761703874624,
  812542484380482543680,
  912878575582140374853524180366447721643604599522840461034534244499029687106330987324471255104,
  664967968980439146560,
  912878575582140374853524180366447721643604599522840461034534244499029687548944758702443601984,
  812541921567968075840,
  912878575582140374853524180366447721643604599522840461034534244499029687108636267383731527744,
  664968531792953614400,
  912878575582140374853524180366447721643604599522840461034534244499029687551250038761703874624,
  812542484380482543680,
  652137970611326155811163132250047317029016645133600620953108266981668880886503121581933076544,
  664968355914042843200,
  652137970611326155811163132250047317029016645133600620953108266981668881181578969167247974464,
  812542299707626233920,
  652137970611326155811163132250047317029016645133600620953108266981668880884197841522672803904,
  664967793101528375360,
  652137970611326155811163132250047317029016645133600620953108266981668881179273689107987701824,
  812541736895111766080,
  912751260833619469473132402510922135508538882748236340018869485720945038720086887811605340224,
  811821908483052937280,
  912751260833619469473132402510922135508538882748236340018869485720945038572548964018947891264,
  664283984690395488320,
  912751260833619469473132402510922135508538882748236340018869485720945038720086887811605340224,
  811821908483052937280,
  912751260833619469473132402510922135508538882748236340018869485720945038720086887811605340224,
  811821908483052937280,
  1173555523178694141205689339555085333190659695524778240608127842627348169503034252821850234944,
  812577941568894017600,
  1173555523178694141205689339555085333190659695524778240608127842627348169060420481443877888064,
  665003988981365088320,
  1173555523178694141205689339555085333190659695524778240608127842627348169505339532881110507584,
  812578504381408485440,
  1173555523178694141205689339555085333190659695524778240608127842627348169062725761503138160704,
  665004551793879556160,
  912751260833619469473132402510922135508538882748236340018869485720945038717781607752345067584,
  811821345670538469440,
  912751260833619469473132402510922135508538882748236340018869485720945038720086887811605340224,
  811821908483052937280,
  912751260833619469473132402510922135508538882748236340018869485720945038717781607752345067584,
  811821345670538469440,
  912751260833619469473132402510922135508538882748236340018869485720945038720086887811605340224,
  811821908483052937280,
  1173555523178694141205689339555085333190659695524778240608127842627348169503034252821850234944,
  812577941568894017600,
  1173555523178694141205689339555085333190659695524778240608127842627348169060420481443877888064,
  665003988981365088320,
  1173555523178694141205689339555085333190659695524778240608127842627348169505339532881110507584,
  812578504381408485440,
  1173555523178694141205689339555085333190659695524778240608127842627348169062725761503138160704,
  665004551793879556160,
  912751260833619469473132402510922135508538882748236340018869485720945038717781607752345067584,
  811821345670538469440,
  912751260833619469473132402510922135508538882748236340018869485720945038720086887811605340224,
  811821908483052937280,
  912751260833619469473132402510922135508538882748236340018869485720945038717781607752345067584,
  811821345670538469440,
  912751260833619469473132402510922135508538882748236340018869485720945038720086887811605340224,
  811821908483052937280,
  1173555523178694141205689339555085333190659695524778240608127842627348169505339532881110507584,
  812578504381408485440,
  1173555523178694141205689339555085333190659695524778240608127842627348169062725761503138160704,
  665004551793879556160,
  912751260833619469473132402510922135508538882748236340018869485720945038720086887811605340224,
  811821908483052937280,
  912751260833619469473132402510922135508538882748236340018869485720945038720086887811605340224,
  811821908483052937280,
  912751260833619469473132402510922135508538882748236340018869485720945038717781607752345067584,
  811821345670538469440,
  912751260833619469473132402510922135508538882748236340018869485720945038570243683959687618624,
  664283421877881020480,
  912751260833619469473132402510922135508538882748236340018869485720945038720086887811605340224,
  811821908483052937280,
  912751260833619469473132402510922135508538882748236340018869485720945038572548964018947891264,
  664283984690395488320,
  912751260833619469473132402510922135508538882748236340018869485720945038720086887811605340224,
  811821908483052937280,
  912751260833619469473132402510922135508538882748236340018869485720945038572548964018947891264,
  664283984690395488320,
  912751260833619469473132402510922135508538882748236340018869485720945038717781607752345067584,
  811821345670538469440,
  912751260833619469473132402510922135508538882748236340018869485720945038720086887811605340224,
  811821908483052937280,
  912751260833619469473132402510922135508538882748236340018869485720945038720086887811605340224,
  811821908483052937280,
  912751260833619469473132402510922135508538882748236340018869485720945038717781607752345067584,
  811821345670538469440,
  912751260833619469473132402510922135508538882748236340018869485720945038570243683959687618624,
  664283421877881020480,
  912751260833619469473132402510922135508538882748236340018869485720945038720086887811605340224,
  811821908483052937280,
  912751260833619469473132402510922135508538882748236340018869485720945038572548964018947891264,
  664283984690395488320,
  912751260833619469473132402510922135508538882748236340018869485720945038720086887811605340224,
  811821908483052937280,
  912751260833619469473132402510922135508538882748236340018869485720945038572548964018947891264,
  664283984690395488320,
  1173491865804433688515493450627322540123126837137476180100295463238305844792376829761486069824,
  665003821896399855680,
  1173491865804433688515493450627322540123126837137476180100295463238305845087452677346800967744,
  812577765689983246400,
  1173491865804433688515493450627322540123126837137476180100295463238305844794682109820746342464,
  665004384708914323520,
  1173491865804433688515493450627322540123126837137476180100295463238305845089757957406061240384,
  812578328502497714240,
  1173555523178694141205689339555085333190659695524778240608127842627348169062725761503138160704,
  665004551793879556160,
  1173555523178694141205689339555085333190659695524778240608127842627348169505339532881110507584,
  812578504381408485440,
  1173555523178694141205689339555085333190659695524778240608127842627348169060420481443877888064,
  665003988981365088320,
  1173555523178694141205689339555085333190659695524778240608127842627348169503034252821850234944,
  812577941568894017600,
  1173555523178694141205689339555085333190659695524778240608127842627348169062725761503138160704,
  665004551793879556160,
  1173555523178694141205689339555085333190659695524778240608127842627348169505339532881110507584,
  812578504381408485440,
  1173555523178694141205689339555085333190659695524778240608127842627348169062725761503138160704,
  665004551793879556160,
  1173555523178694141205689339555085333190659695524778240608127842627348169505339532881110507584,
  812578504381408485440,
  912751260833619469473132402510922135508538882748236340018869485720945038717781607752345067584,
  811821345670538469440,
  912751260833619469473132402510922135508538882748236340018869485720945038720086887811605340224,
  811821908483052937280,
  912751260833619469473132402510922135508538882748236340018869485720945038720086887811605340224,
  811821908483052937280,
  1173555523178694141205689339555085333190659695524778240608127842627348169060420481443877888064,
  665003988981365088320,
  1173555523178694141205689339555085333190659695524778240608127842627348169503034252821850234944,
  812577941568894017600,
  1173555523178694141205689339555085333190659695524778240608127842627348169062725761503138160704,
  665004551793879556160,
  1173555523178694141205689339555085333190659695524778240608127842627348169505339532881110507584,
  812578504381408485440,
  1173555523178694141205689339555085333190659695524778240608127842627348169062725761503138160704,
  665004551793879556160,
  1173555523178694141205689339555085333190659695524778240608127842627348169505339532881110507584,
  812578504381408485440,
  912751260833619469473132402510922135508538882748236340018869485720945038720086887811605340224,
  811821908483052937280,
  912751260833619469473132402510922135508538882748236340018869485720945038572548964018947891264,
  664283984690395488320,
  912751260833619469473132402510922135508538882748236340018869485720945038717781607752345067584,
  811821345670538469440,
  912751260833619469473132402510922135508538882748236340018869485720945038570243683959687618624,
  664283421877881020480,
  912751260833619469473132402510922135508538882748236340018869485720945038720086887811605340224,
  811821908483052937280,
  912751260833619469473132402510922135508538882748236340018869485720945038572548964018947891264,
  664283984690395488320,
  912751260833619469473132402510922135508538882748236340018869485720945038720086887811605340224,
  811821908483052937280,
  912751260833619469473132402510922135508538882748236340018869485720945038717781607752345067584,
  811821345670538469440,
  912751260833619469473132402510922135508538882748236340018869485720945038720086887811605340224,
  811821908483052937280,
  912751260833619469473132402510922135508538882748236340018869485720945038720086887811605340224,
  811821908483052937280,
  912751260833619469473132402510922135508538882748236340018869485720945038572548964018947891264,
  664283984690395488320,
  912751260833619469473132402510922135508538882748236340018869485720945038717781607752345067584,
  811821345670538469440,
  912751260833619469473132402510922135508538882748236340018869485720945038570243683959687618624,
  664283421877881020480,
  912751260833619469473132402510922135508538882748236340018869485720945038720086887811605340224,
  811821908483052937280,
  912751260833619469473132402510922135508538882748236340018869485720945038572548964018947891264,
  664283984690395488320,
  1173555523178694141205689339555085333190659695524778240608127842627348169062725761503138160704,
  665004551793879556160,
  1173555523178694141205689339555085333190659695524778240608127842627348169505339532881110507584,
  812578504381408485440,
  1173555523178694141205689339555085333190659695524778240608127842627348169060420481443877888064,
  665003988981365088320,
  1173555523178694141205689339555085333190659695524778240608127842627348169503034252821850234944,
  812577941568894017600,
  1173555523178694141205689339555085333190659695524778240608127842627348169062725761503138160704,
  665004551793879556160,
  1173555523178694141205689339555085333190659695524778240608127842627348169505339532881110507584,
  812578504381408485440,
  1173555523178694141205689339555085333190659695524778240608127842627348169062725761503138160704,
  665004551793879556160,
  1173555523178694141205689339555085333190659695524778240608127842627348169505339532881110507584,
  812578504381408485440,
  1173555523178694141205689339555085333190659695524778240608127842627348169060420481443877888064,
  665003988981365088320,
  1173555523178694141205689339555085333190659695524778240608127842627348169503034252821850234944,
  812577941568894017600,
  1173555523178694141205689339555085333190659695524778240608127842627348169062725761503138160704,
  665004551793879556160,
  1173555523178694141205689339555085333190659695524778240608127842627348169505339532881110507584,
  812578504381408485440,
  912751260833619469473132402510922135508538882748236340018869485720945038720086887811605340224,
  811821908483052937280,
  912751260833619469473132402510922135508538882748236340018869485720945038717781607752345067584,
  811821345670538469440,
  912751260833619469473132402510922135508538882748236340018869485720945038720086887811605340224,
  811821908483052937280,
  1173555523178694141205689339555085333190659695524778240608127842627348169062725761503138160704,
  665004551793879556160,
  1173555523178694141205689339555085333190659695524778240608127842627348169505339532881110507584,
  812578504381408485440,
  1173555523178694141205689339555085333190659695524778240608127842627348169060420481443877888064,
  665003988981365088320,
  1173555523178694141205689339555085333190659695524778240608127842627348169503034252821850234944,
  812577941568894017600,
  1173555523178694141205689339555085333190659695524778240608127842627348169062725761503138160704,
  665004551793879556160,
  1173555523178694141205689339555085333190659695524778240608127842627348169505339532881110507584,
  812578504381408485440,
  912751260833619469473132402510922135508538882748236340018869485720945038720086887811605340224,
  811821908483052937280,
  912751260833619469473132402510922135508538882748236340018869485720945038572548964018947891264,
  664283984690395488320,
  912751260833619469473132402510922135508538882748236340018869485720945038717781607752345067584,
  811821345670538469440,
  912751260833619469473132402510922135508538882748236340018869485720945038570243683959687618624,
  664283421877881020480,
  912751260833619469473132402510922135508538882748236340018869485720945038720086887811605340224,
  811821908483052937280,
  912751260833619469473132402510922135508538882748236340018869485720945038572548964018947891264,
  664283984690395488320,
  912751260833619469473132402510922135508538882748236340018869485720945038720086887811605340224,
  811821908483052937280,
  912751260833619469473132402510922135508538882748236340018869485720945038717781607752345067584,
  811821345670538469440,
  912751260833619469473132402510922135508538882748236340018869485720945038720086887811605340224,
  811821908483052937280,
  912751260833619469473132402510922135508538882748236340018869485720945038720086887811605340224,
  811821908483052937280,
  912751260833619469473132402510922135508538882748236340018869485720945038572548964018947891264,
  664283984690395488320,
  912751260833619469473132402510922135508538882748236340018869485720945038717781607752345067584,
  811821345670538469440,
  912751260833619469473132402510922135508538882748236340018869485720945038570243683959687618624,
  664283421877881020480,
  912751260833619469473132402510922135508538882748236340018869485720945038720086887811605340224,
  811821908483052937280,
  912751260833619469473132402510922135508538882748236340018869485720945038572548964018947891264,
  664283984690395488320,
  1173555523178694141205689339555085333190659695524778240608127842627348169062725761503138160704,
  665004551793879556160,
  1173555523178694141205689339555085333190659695524778240608127842627348169505339532881110507584,
  812578504381408485440,
  1173555523178694141205689339555085333190659695524778240608127842627348169060420481443877888064,
  665003988981365088320,
  1173555523178694141205689339555085333190659695524778240608127842627348169503034252821850234944,
  812577941568894017600,
  1173555523178694141205689339555085333190659695524778240608127842627348169062725761503138160704,
  665004551793879556160,
  1173555523178694141205689339555085333190659695524778240608127842627348169505339532881110507584,
  812578504381408485440,
  1173555523178694141205689339555085333190659695524778240608127842627348169062725761503138160704,
  665004551793879556160,
  1173555523178694141205689339555085333190659695524778240608127842627348169505339532881110507584,
  812578504381408485440,
  1173555523178694141205689339555085333190659695524778240608127842627348169060420481443877888064,
  665003988981365088320,
  1173555523178694141205689339555085333190659695524778240608127842627348169503034252821850234944,
  812577941568894017600,
  1173555523178694141205689339555085333190659695524778240608127842627348169062725761503138160704,
  665004551793879556160,
  1173555523178694141205689339555085333190659695524778240608127842627348169505339532881110507584,
  812578504381408485440,
  912751260833619469473132402510922135508538882748236340018869485720945038720086887811605340224,
  811821908483052937280,
  912751260833619469473132402510922135508538882748236340018869485720945038717781607752345067584,
  811821345670538469440,
  912751260833619469473132402510922135508538882748236340018869485720945038720086887811605340224,
  811821908483052937280,
  1173555523178694141205689339555085333190659695524778240608127842627348169062725761503138160704,
  665004551793879556160,
  1173555523178694141205689339555085333190659695524778240608127842627348169505339532881110507584,
  812578504381408485440,
  1173555523178694141205689339555085333190659695524778240608127842627348169060420481443877888064,
  665003988981365088320,
  1173555523178694141205689339555085333190659695524778240608127842627348169503034252821850234944,
  812577941568894017600,
  1173555523178694141205689339555085333190659695524778240608127842627348169062725761503138160704,
  665004551793879556160,
  1173555523178694141205689339555085333190659695524778240608127842627348169505339532881110507584,
  812578504381408485440,
  912751260833619469473132402510922135508538882748236340018869485720945038720086887811605340224,
  811821908483052937280,
  912751260833619469473132402510922135508538882748236340018869485720945038572548964018947891264,
  664283984690395488320,
  912751260833619469473132402510922135508538882748236340018869485720945038720086887811605340224,
  811821908483052937280,
  912751260833619469473132402510922135508538882748236340018869485720945038720086887811605340224,
  811821908483052937280,
  912751260833619469473132402510922135508538882748236340018869485720945038572548964018947891264,
  664283984690395488320,
  1173555523178694141205689339555085333190659695524778240608127842627348169062725761503138160704,
  665004551793879556160,
  1173555523178694141205689339555085333190659695524778240608127842627348169505339532881110507584,
  812578504381408485440,
  1173555523178694141205689339555085333190659695524778240608127842627348169062725761503138160704,
  665004551793879556160,
  1173555523178694141205689339555085333190659695524778240608127842627348169505339532881110507584,
  812578504381408485440,
  912751260833619469473132402510922135508538882748236340018869485720945038720086887811605340224,
  811821908483052937280,
  1173555523178694141205689339555085333190659695524778240608127842627348169062725761503138160704,
  665004551793879556160,
  1173555523178694141205689339555085333190659695524778240608127842627348169505339532881110507584,
  812578504381408485440,
  912751261319168121430185658456673875525769712991196301317606750096321736441250932275498721344,
  664283984690429042752,
  912751261319168121430185658456673875525769712991196301317606750096321736588788856068156170304,
  811821908483086491712,
  912751261319168121430185658456673875525769712991196301317606750096321736588788856068156170304,
  811821908483086491712,
  912751261319168121430185658456673875525769712991196301317606750096321736441250932275498721344,
  664283984690429042752,
  912751261319168121430185658456673875525769712991196301317606750096321736588788856068156170304,
  811821908483086491712,
  1173555523664242793162742595500837073207890525767738201906865107002724866931427729759688990784,
  665004551793913110592,
  1173555523664242793162742595500837073207890525767738201906865107002724867374041501137661337664,
  812578504381442039872,
  1173555523664242793162742595500837073207890525767738201906865107002724866931427729759688990784,
  665004551793913110592,
  1173555523664242793162742595500837073207890525767738201906865107002724867374041501137661337664,
  812578504381442039872,
  912751261319168121430185658456673875525769712991196301317606750096321736588788856068156170304,
  811821908483086491712,
  1173555523664242793162742595500837073207890525767738201906865107002724866931427729759688990784,
  665004551793913110592,
  1173555523664242793162742595500837073207890525767738201906865107002724867374041501137661337664,
  812578504381442039872,
  912751261319168121430185658456673875525769712991196301317606750096321736441250932275498721344,
  664283984690429042752,
  912751261319168121430185658456673875525769712991196301317606750096321736588788856068156170304,
  811821908483086491712,
  912751261319168121430185658456673875525769712991196301317606750096321736588788856068156170304,
  811821908483086491712,
  912751261319168121430185658456673875525769712991196301317606750096321736441250932275498721344,
  664283984690429042752,
  912751261319168121430185658456673875525769712991196301317606750096321736588788856068156170304,
  811821908483086491712,
  1173555523664242793162742595500837073207890525767738201906865107002724866931427729759688990784,
  665004551793913110592,
  1173555523664242793162742595500837073207890525767738201906865107002724867374041501137661337664,
  812578504381442039872,
  1173555523664242793162742595500837073207890525767738201906865107002724866931427729759688990784,
  665004551793913110592,
  1173555523664242793162742595500837073207890525767738201906865107002724867374041501137661337664,
  812578504381442039872,
  912751261319168121430185658456673875525769712991196301317606750096321736588788856068156170304,
  811821908483086491712,
  1173555523664242793162742595500837073207890525767738201906865107002724866931427729759688990784,
  665004551793913110592,
  1173555523664242793162742595500837073207890525767738201906865107002724867374041501137661337664,
  812578504381442039872]
def wnT2T3_mat_cert_6 : List Nat := [912751261319168121430185658456673875525769712991196301317606750096321736441250932275498721344,
  664283984690429042752,
  912751261319168121430185658456673875525769712991196301317606750096321736588788856068156170304,
  811821908483086491712,
  912751261319168121430185658456673875525769712991196301317606750096321736438945652216238448704,
  664283421877914574912,
  912751261319168121430185658456673875525769712991196301317606750096321736586483576008895897664,
  811821345670572023872,
  912751261319168121430185658456673875525769712991196301317606750096321736588788856068156170304,
  811821908483086491712,
  912751261319168121430185658456673875525769712991196301317606750096321736586483576008895897664,
  811821345670572023872,
  912751261319168121430185658456673875525769712991196301317606750096321736441250932275498721344,
  664283984690429042752,
  912751261319168121430185658456673875525769712991196301317606750096321736588788856068156170304,
  811821908483086491712,
  912751261319168121430185658456673875525769712991196301317606750096321736438945652216238448704,
  664283421877914574912,
  912751261319168121430185658456673875525769712991196301317606750096321736586483576008895897664,
  811821345670572023872,
  1173555523664242793162742595500837073207890525767738201906865107002724866931427729759688990784,
  665004551793913110592,
  1173555523664242793162742595500837073207890525767738201906865107002724867374041501137661337664,
  812578504381442039872,
  1173555523664242793162742595500837073207890525767738201906865107002724866929122449700428718144,
  665003988981398642752,
  1173555523664242793162742595500837073207890525767738201906865107002724867371736221078401065024,
  812577941568927572032,
  1173555523664242793162742595500837073207890525767738201906865107002724866931427729759688990784,
  665004551793913110592,
  1173555523664242793162742595500837073207890525767738201906865107002724867374041501137661337664,
  812578504381442039872,
  1173555523664242793162742595500837073207890525767738201906865107002724866929122449700428718144,
  665003988981398642752,
  1173555523664242793162742595500837073207890525767738201906865107002724867371736221078401065024,
  812577941568927572032,
  912751261319168121430185658456673875525769712991196301317606750096321736588788856068156170304,
  811821908483086491712,
  912751261319168121430185658456673875525769712991196301317606750096321736586483576008895897664,
  811821345670572023872,
  1173555523664242793162742595500837073207890525767738201906865107002724866931427729759688990784,
  665004551793913110592,
  1173555523664242793162742595500837073207890525767738201906865107002724867374041501137661337664,
  812578504381442039872,
  1173555523664242793162742595500837073207890525767738201906865107002724866929122449700428718144,
  665003988981398642752,
  1173555523664242793162742595500837073207890525767738201906865107002724867371736221078401065024,
  812577941568927572032,
  652074313722614355078020499268036263978714616989258521744013151968003254634699361948749537344,
  811821899689140953152,
  652074313722614355078020499268036263978714616989258521744013151968003254487161438156092088384,
  664283975896483504192,
  652074313722614355078020499268036263978714616989258521744013151968003254634699361948749537344,
  811821899689140953152,
  652074313722614355078020499268036263978714616989258521744013151968003254634699361948749537344,
  811821899689140953152,
  912878576067689026810577436312199461660835429765800422333271508874406384977338235640282357824,
  664968531792987168832,
  912878576067689026810577436312199461660835429765800422333271508874406385419952007018254704704,
  812542484380516098112,
  652074313722614355078020499268036263978714616989258521744013151968003254487161438156092088384,
  664283975896483504192,
  652074313722614355078020499268036263978714616989258521744013151968003254634699361948749537344,
  811821899689140953152,
  912878576067689026810577436312199461660835429765800422333271508874406384977338235640282357824,
  664968531792987168832,
  912878576067689026810577436312199461660835429765800422333271508874406385419952007018254704704,
  812542484380516098112,
  912878576067689026810577436312199461660835429765800422333271508874406384977338235640282357824,
  664968531792987168832,
  912878576067689026810577436312199461660835429765800422333271508874406385419952007018254704704,
  812542484380516098112,
  652074313722614355078020499268036263978714616989258521744013151968003254634699361948749537344,
  811821899689140953152,
  652074313722614355078020499268036263978714616989258521744013151968003254632394081889489264704,
  811821336876626485312,
  652074313722614355078020499268036263978714616989258521744013151968003254634699361948749537344,
  811821899689140953152,
  652074313722614355078020499268036263978714616989258521744013151968003254487161438156092088384,
  664283975896483504192,
  652074313722614355078020499268036263978714616989258521744013151968003254634699361948749537344,
  811821899689140953152,
  652074313722614355078020499268036263978714616989258521744013151968003254484856158096831815744,
  664283413083969036352,
  652074313722614355078020499268036263978714616989258521744013151968003254632394081889489264704,
  811821336876626485312,
  652074313722614355078020499268036263978714616989258521744013151968003254487161438156092088384,
  664283975896483504192,
  652074313722614355078020499268036263978714616989258521744013151968003254634699361948749537344,
  811821899689140953152,
  652074313722614355078020499268036263978714616989258521744013151968003254634699361948749537344,
  811821899689140953152,
  652074313722614355078020499268036263978714616989258521744013151968003254632394081889489264704,
  811821336876626485312,
  652074313722614355078020499268036263978714616989258521744013151968003254634699361948749537344,
  811821899689140953152,
  912878576067689026810577436312199461660835429765800422333271508874406384977338235640282357824,
  664968531792987168832,
  912878576067689026810577436312199461660835429765800422333271508874406385419952007018254704704,
  812542484380516098112,
  912878576067689026810577436312199461660835429765800422333271508874406384975032955581022085184,
  664967968980472700992,
  912878576067689026810577436312199461660835429765800422333271508874406385417646726958994432064,
  812541921568001630272,
  912878576067689026810577436312199461660835429765800422333271508874406384977338235640282357824,
  664968531792987168832,
  912878576067689026810577436312199461660835429765800422333271508874406385419952007018254704704,
  812542484380516098112,
  652074313722614355078020499268036263978714616989258521744013151968003254487161438156092088384,
  664283975896483504192,
  652074313722614355078020499268036263978714616989258521744013151968003254634699361948749537344,
  811821899689140953152,
  652074313722614355078020499268036263978714616989258521744013151968003254484856158096831815744,
  664283413083969036352,
  652074313722614355078020499268036263978714616989258521744013151968003254632394081889489264704,
  811821336876626485312,
  652074313722614355078020499268036263978714616989258521744013151968003254487161438156092088384,
  664283975896483504192,
  652074313722614355078020499268036263978714616989258521744013151968003254634699361948749537344,
  811821899689140953152,
  912878576067689026810577436312199461660835429765800422333271508874406384977338235640282357824,
  664968531792987168832,
  912878576067689026810577436312199461660835429765800422333271508874406385419952007018254704704,
  812542484380516098112,
  912878576067689026810577436312199461660835429765800422333271508874406384975032955581022085184,
  664967968980472700992,
  912878576067689026810577436312199461660835429765800422333271508874406385417646726958994432064,
  812541921568001630272,
  912878576067689026810577436312199461660835429765800422333271508874406384977338235640282357824,
  664968531792987168832,
  912878576067689026810577436312199461660835429765800422333271508874406385419952007018254704704,
  812542484380516098112,
  912878576067689026810577436312199461660835429765800422333271508874406384977338235640282357824,
  664968531792987168832,
  912878576067689026810577436312199461660835429765800422333271508874406385419952007018254704704,
  812542484380516098112,
  912878576067689026810577436312199461660835429765800422333271508874406384975032955581022085184,
  664967968980472700992,
  912878576067689026810577436312199461660835429765800422333271508874406385417646726958994432064,
  812541921568001630272,
  912878576067689026810577436312199461660835429765800422333271508874406384977338235640282357824,
  664968531792987168832,
  912878576067689026810577436312199461660835429765800422333271508874406385419952007018254704704,
  812542484380516098112,
  652074313722614355078020499268036263978714616989258521744013151968003254634699361948749537344,
  811821899689140953152,
  652074313722614355078020499268036263978714616989258521744013151968003254632394081889489264704,
  811821336876626485312,
  652074313722614355078020499268036263978714616989258521744013151968003254634699361948749537344,
  811821899689140953152,
  652074313722614355078020499268036263978714616989258521744013151968003254487161438156092088384,
  664283975896483504192,
  652074313722614355078020499268036263978714616989258521744013151968003254634699361948749537344,
  811821899689140953152,
  652074313722614355078020499268036263978714616989258521744013151968003254484856158096831815744,
  664283413083969036352,
  652074313722614355078020499268036263978714616989258521744013151968003254632394081889489264704,
  811821336876626485312,
  652074313722614355078020499268036263978714616989258521744013151968003254487161438156092088384,
  664283975896483504192,
  652074313722614355078020499268036263978714616989258521744013151968003254634699361948749537344,
  811821899689140953152,
  652074313722614355078020499268036263978714616989258521744013151968003254634699361948749537344,
  811821899689140953152,
  652074313722614355078020499268036263978714616989258521744013151968003254632394081889489264704,
  811821336876626485312,
  652074313722614355078020499268036263978714616989258521744013151968003254634699361948749537344,
  811821899689140953152,
  912878576067689026810577436312199461660835429765800422333271508874406384977338235640282357824,
  664968531792987168832,
  912878576067689026810577436312199461660835429765800422333271508874406385419952007018254704704,
  812542484380516098112,
  912878576067689026810577436312199461660835429765800422333271508874406384975032955581022085184,
  664967968980472700992,
  912878576067689026810577436312199461660835429765800422333271508874406385417646726958994432064,
  812541921568001630272,
  912878576067689026810577436312199461660835429765800422333271508874406384977338235640282357824,
  664968531792987168832,
  912878576067689026810577436312199461660835429765800422333271508874406385419952007018254704704,
  812542484380516098112,
  652074313722614355078020499268036263978714616989258521744013151968003254487161438156092088384,
  664283975896483504192,
  652074313722614355078020499268036263978714616989258521744013151968003254634699361948749537344,
  811821899689140953152,
  652074313722614355078020499268036263978714616989258521744013151968003254484856158096831815744,
  664283413083969036352,
  652074313722614355078020499268036263978714616989258521744013151968003254632394081889489264704,
  811821336876626485312,
  652074313722614355078020499268036263978714616989258521744013151968003254487161438156092088384,
  664283975896483504192,
  652074313722614355078020499268036263978714616989258521744013151968003254634699361948749537344,
  811821899689140953152,
  912878576067689026810577436312199461660835429765800422333271508874406384977338235640282357824,
  664968531792987168832,
  912878576067689026810577436312199461660835429765800422333271508874406385419952007018254704704,
  812542484380516098112,
  912878576067689026810577436312199461660835429765800422333271508874406384975032955581022085184,
  664967968980472700992,
  912878576067689026810577436312199461660835429765800422333271508874406385417646726958994432064,
  812541921568001630272,
  912878576067689026810577436312199461660835429765800422333271508874406384977338235640282357824,
  664968531792987168832,
  912878576067689026810577436312199461660835429765800422333271508874406385419952007018254704704,
  812542484380516098112,
  912878576067689026810577436312199461660835429765800422333271508874406384977338235640282357824,
  664968531792987168832,
  912878576067689026810577436312199461660835429765800422333271508874406385419952007018254704704,
  812542484380516098112,
  912878576067689026810577436312199461660835429765800422333271508874406384975032955581022085184,
  664967968980472700992,
  912878576067689026810577436312199461660835429765800422333271508874406385417646726958994432064,
  812541921568001630272,
  912878576067689026810577436312199461660835429765800422333271508874406384977338235640282357824,
  664968531792987168832,
  912878576067689026810577436312199461660835429765800422333271508874406385419952007018254704704,
  812542484380516098112,
  652074313722614355078020499268036263978714616989258521744013151968003254634699361948749537344,
  811821899689140953152,
  652074313722614355078020499268036263978714616989258521744013151968003254634699361948749537344,
  811821899689140953152,
  652074313722614355078020499268036263978714616989258521744013151968003254632394081889489264704,
  811821336876626485312,
  652074313722614355078020499268036263978714616989258521744013151968003254487161438156092088384,
  664283975896483504192,
  652074313722614355078020499268036263978714616989258521744013151968003254634699361948749537344,
  811821899689140953152,
  652074313722614355078020499268036263978714616989258521744013151968003254487161438156092088384,
  664283975896483504192,
  652074313722614355078020499268036263978714616989258521744013151968003254634699361948749537344,
  811821899689140953152,
  652074313722614355078020499268036263978714616989258521744013151968003254484856158096831815744,
  664283413083969036352,
  652074313722614355078020499268036263978714616989258521744013151968003254632394081889489264704,
  811821336876626485312,
  652074313722614355078020499268036263978714616989258521744013151968003254634699361948749537344,
  811821899689140953152,
  652074313722614355078020499268036263978714616989258521744013151968003254634699361948749537344,
  811821899689140953152,
  652074313722614355078020499268036263978714616989258521744013151968003254632394081889489264704,
  811821336876626485312,
  912878576067689026810577436312199461660835429765800422333271508874406384977338235640282357824,
  664968531792987168832,
  912878576067689026810577436312199461660835429765800422333271508874406385419952007018254704704,
  812542484380516098112,
  912878576067689026810577436312199461660835429765800422333271508874406384977338235640282357824,
  664968531792987168832,
  912878576067689026810577436312199461660835429765800422333271508874406385419952007018254704704,
  812542484380516098112,
  912878576067689026810577436312199461660835429765800422333271508874406384975032955581022085184,
  664967968980472700992,
  912878576067689026810577436312199461660835429765800422333271508874406385417646726958994432064,
  812541921568001630272,
  652074313722614355078020499268036263978714616989258521744013151968003254487161438156092088384,
  664283975896483504192,
  652074313722614355078020499268036263978714616989258521744013151968003254634699361948749537344,
  811821899689140953152,
  652074313722614355078020499268036263978714616989258521744013151968003254487161438156092088384,
  664283975896483504192,
  652074313722614355078020499268036263978714616989258521744013151968003254634699361948749537344,
  811821899689140953152,
  652074313722614355078020499268036263978714616989258521744013151968003254484856158096831815744,
  664283413083969036352,
  652074313722614355078020499268036263978714616989258521744013151968003254632394081889489264704,
  811821336876626485312,
  912878576067689026810577436312199461660835429765800422333271508874406384977338235640282357824,
  664968531792987168832,
  912878576067689026810577436312199461660835429765800422333271508874406385419952007018254704704,
  812542484380516098112,
  912878576067689026810577436312199461660835429765800422333271508874406384977338235640282357824,
  664968531792987168832,
  912878576067689026810577436312199461660835429765800422333271508874406385419952007018254704704,
  812542484380516098112,
  912878576067689026810577436312199461660835429765800422333271508874406384975032955581022085184,
  664967968980472700992,
  912878576067689026810577436312199461660835429765800422333271508874406385417646726958994432064,
  812541921568001630272,
  912878576067689026810577436312199461660835429765800422333271508874406384977338235640282357824,
  664968531792987168832,
  912878576067689026810577436312199461660835429765800422333271508874406385419952007018254704704,
  812542484380516098112,
  652137971096874807768216388195799057046247475376560582251845531357045578755205089838483906624,
  664968355914076397632,
  652137971096874807768216388195799057046247475376560582251845531357045579050280937423798804544,
  812542299707659788352,
  652137971096874807768216388195799057046247475376560582251845531357045578752899809779223633984,
  664967793101561929792,
  652137971096874807768216388195799057046247475376560582251845531357045579047975657364538531904,
  812541736895145320512,
  912751261319168121430185658456673875525769712991196301317606750096321736588788856068156170304,
  811821908483086491712,
  912751261319168121430185658456673875525769712991196301317606750096321736588788856068156170304,
  811821908483086491712,
  912751261319168121430185658456673875525769712991196301317606750096321736441250932275498721344,
  664283984690429042752,
  912751261319168121430185658456673875525769712991196301317606750096321736588788856068156170304,
  811821908483086491712,
  912751261319168121430185658456673875525769712991196301317606750096321736586483576008895897664,
  811821345670572023872,
  912751261319168121430185658456673875525769712991196301317606750096321736588788856068156170304,
  811821908483086491712,
  912751261319168121430185658456673875525769712991196301317606750096321736586483576008895897664,
  811821345670572023872,
  912751261319168121430185658456673875525769712991196301317606750096321736588788856068156170304,
  811821908483086491712,
  1173555523664242793162742595500837073207890525767738201906865107002724866929122449700428718144,
  665003988981398642752,
  1173555523664242793162742595500837073207890525767738201906865107002724867371736221078401065024,
  812577941568927572032,
  1173555523664242793162742595500837073207890525767738201906865107002724866931427729759688990784,
  665004551793913110592,
  1173555523664242793162742595500837073207890525767738201906865107002724867374041501137661337664,
  812578504381442039872,
  912751261319168121430185658456673875525769712991196301317606750096321736586483576008895897664,
  811821345670572023872,
  912751261319168121430185658456673875525769712991196301317606750096321736588788856068156170304,
  811821908483086491712,
  912751261319168121430185658456673875525769712991196301317606750096321736586483576008895897664,
  811821345670572023872,
  912751261319168121430185658456673875525769712991196301317606750096321736588788856068156170304,
  811821908483086491712,
  1173555523664242793162742595500837073207890525767738201906865107002724866929122449700428718144,
  665003988981398642752,
  1173555523664242793162742595500837073207890525767738201906865107002724867371736221078401065024,
  812577941568927572032,
  1173555523664242793162742595500837073207890525767738201906865107002724866931427729759688990784,
  665004551793913110592,
  1173555523664242793162742595500837073207890525767738201906865107002724867374041501137661337664,
  812578504381442039872,
  912751261319168121430185658456673875525769712991196301317606750096321736588788856068156170304,
  811821908483086491712,
  912751261319168121430185658456673875525769712991196301317606750096321736588788856068156170304,
  811821908483086491712,
  1173555523664242793162742595500837073207890525767738201906865107002724866931427729759688990784,
  665004551793913110592,
  1173555523664242793162742595500837073207890525767738201906865107002724867374041501137661337664,
  812578504381442039872,
  912751261319168121430185658456673875525769712991196301317606750096321736586483576008895897664,
  811821345670572023872,
  912751261319168121430185658456673875525769712991196301317606750096321736438945652216238448704,
  664283421877914574912,
  912751261319168121430185658456673875525769712991196301317606750096321736588788856068156170304,
  811821908483086491712,
  912751261319168121430185658456673875525769712991196301317606750096321736441250932275498721344,
  664283984690429042752,
  912751261319168121430185658456673875525769712991196301317606750096321736588788856068156170304,
  811821908483086491712,
  912751261319168121430185658456673875525769712991196301317606750096321736441250932275498721344,
  664283984690429042752,
  912751261319168121430185658456673875525769712991196301317606750096321736586483576008895897664,
  811821345670572023872,
  912751261319168121430185658456673875525769712991196301317606750096321736588788856068156170304,
  811821908483086491712,
  912751261319168121430185658456673875525769712991196301317606750096321736588788856068156170304,
  811821908483086491712,
  912751261319168121430185658456673875525769712991196301317606750096321736586483576008895897664,
  811821345670572023872,
  912751261319168121430185658456673875525769712991196301317606750096321736438945652216238448704,
  664283421877914574912,
  912751261319168121430185658456673875525769712991196301317606750096321736588788856068156170304,
  811821908483086491712,
  912751261319168121430185658456673875525769712991196301317606750096321736441250932275498721344,
  664283984690429042752,
  912751261319168121430185658456673875525769712991196301317606750096321736588788856068156170304,
  811821908483086491712,
  912751261319168121430185658456673875525769712991196301317606750096321736441250932275498721344,
  664283984690429042752,
  1173491866289982340472546706573074280140357667380436141399032727613682542661078798018036899904,
  665003821896433410112,
  1173491866289982340472546706573074280140357667380436141399032727613682542956154645603351797824,
  812577765690016800832,
  1173491866289982340472546706573074280140357667380436141399032727613682542663384078077297172544,
  665004384708947877952,
  1173491866289982340472546706573074280140357667380436141399032727613682542958459925662612070464,
  812578328502531268672,
  1173555523664242793162742595500837073207890525767738201906865107002724866931427729759688990784,
  665004551793913110592,
  1173555523664242793162742595500837073207890525767738201906865107002724867374041501137661337664,
  812578504381442039872,
  1173555523664242793162742595500837073207890525767738201906865107002724866929122449700428718144,
  665003988981398642752,
  1173555523664242793162742595500837073207890525767738201906865107002724867371736221078401065024,
  812577941568927572032,
  1173555523664242793162742595500837073207890525767738201906865107002724866931427729759688990784,
  665004551793913110592,
  1173555523664242793162742595500837073207890525767738201906865107002724867374041501137661337664,
  812578504381442039872,
  1173555523664242793162742595500837073207890525767738201906865107002724866931427729759688990784,
  665004551793913110592,
  1173555523664242793162742595500837073207890525767738201906865107002724867374041501137661337664,
  812578504381442039872,
  912751261319168121430185658456673875525769712991196301317606750096321736586483576008895897664,
  811821345670572023872,
  912751261319168121430185658456673875525769712991196301317606750096321736588788856068156170304,
  811821908483086491712,
  912751261319168121430185658456673875525769712991196301317606750096321736588788856068156170304,
  811821908483086491712,
  1173555523664242793162742595500837073207890525767738201906865107002724866929122449700428718144,
  665003988981398642752,
  1173555523664242793162742595500837073207890525767738201906865107002724867371736221078401065024,
  812577941568927572032]
def wnT2T3_mat_cert_7 : List Nat := [1173555523664242793162742595500837073207890525767738201906865107002724866931427729759688990784,
  665004551793913110592,
  1173555523664242793162742595500837073207890525767738201906865107002724867374041501137661337664,
  812578504381442039872,
  1173555523664242793162742595500837073207890525767738201906865107002724866931427729759688990784,
  665004551793913110592,
  1173555523664242793162742595500837073207890525767738201906865107002724867374041501137661337664,
  812578504381442039872,
  912751261319168121430185658456673875525769712991196301317606750096321736588788856068156170304,
  811821908483086491712,
  912751261319168121430185658456673875525769712991196301317606750096321736441250932275498721344,
  664283984690429042752,
  912751261319168121430185658456673875525769712991196301317606750096321736586483576008895897664,
  811821345670572023872,
  912751261319168121430185658456673875525769712991196301317606750096321736438945652216238448704,
  664283421877914574912,
  912751261319168121430185658456673875525769712991196301317606750096321736588788856068156170304,
  811821908483086491712,
  912751261319168121430185658456673875525769712991196301317606750096321736441250932275498721344,
  664283984690429042752,
  912751261319168121430185658456673875525769712991196301317606750096321736588788856068156170304,
  811821908483086491712,
  912751261319168121430185658456673875525769712991196301317606750096321736586483576008895897664,
  811821345670572023872,
  912751261319168121430185658456673875525769712991196301317606750096321736588788856068156170304,
  811821908483086491712,
  912751261319168121430185658456673875525769712991196301317606750096321736588788856068156170304,
  811821908483086491712,
  912751261319168121430185658456673875525769712991196301317606750096321736441250932275498721344,
  664283984690429042752,
  912751261319168121430185658456673875525769712991196301317606750096321736586483576008895897664,
  811821345670572023872,
  912751261319168121430185658456673875525769712991196301317606750096321736438945652216238448704,
  664283421877914574912,
  912751261319168121430185658456673875525769712991196301317606750096321736588788856068156170304,
  811821908483086491712,
  912751261319168121430185658456673875525769712991196301317606750096321736441250932275498721344,
  664283984690429042752,
  1173555523664242793162742595500837073207890525767738201906865107002724866931427729759688990784,
  665004551793913110592,
  1173555523664242793162742595500837073207890525767738201906865107002724867374041501137661337664,
  812578504381442039872,
  1173555523664242793162742595500837073207890525767738201906865107002724866929122449700428718144,
  665003988981398642752,
  1173555523664242793162742595500837073207890525767738201906865107002724867371736221078401065024,
  812577941568927572032,
  1173555523664242793162742595500837073207890525767738201906865107002724866931427729759688990784,
  665004551793913110592,
  1173555523664242793162742595500837073207890525767738201906865107002724867374041501137661337664,
  812578504381442039872,
  1173555523664242793162742595500837073207890525767738201906865107002724866931427729759688990784,
  665004551793913110592,
  1173555523664242793162742595500837073207890525767738201906865107002724867374041501137661337664,
  812578504381442039872,
  1173555523664242793162742595500837073207890525767738201906865107002724866929122449700428718144,
  665003988981398642752,
  1173555523664242793162742595500837073207890525767738201906865107002724867371736221078401065024,
  812577941568927572032,
  1173555523664242793162742595500837073207890525767738201906865107002724866931427729759688990784,
  665004551793913110592,
  1173555523664242793162742595500837073207890525767738201906865107002724867374041501137661337664,
  812578504381442039872,
  912751261319168121430185658456673875525769712991196301317606750096321736588788856068156170304,
  811821908483086491712,
  912751261319168121430185658456673875525769712991196301317606750096321736586483576008895897664,
  811821345670572023872,
  912751261319168121430185658456673875525769712991196301317606750096321736588788856068156170304,
  811821908483086491712,
  1173555523664242793162742595500837073207890525767738201906865107002724866931427729759688990784,
  665004551793913110592,
  1173555523664242793162742595500837073207890525767738201906865107002724867374041501137661337664,
  812578504381442039872,
  1173555523664242793162742595500837073207890525767738201906865107002724866929122449700428718144,
  665003988981398642752,
  1173555523664242793162742595500837073207890525767738201906865107002724867371736221078401065024,
  812577941568927572032,
  1173555523664242793162742595500837073207890525767738201906865107002724866931427729759688990784,
  665004551793913110592,
  1173555523664242793162742595500837073207890525767738201906865107002724867374041501137661337664,
  812578504381442039872,
  912751261319168121430185658456673875525769712991196301317606750096321736588788856068156170304,
  811821908483086491712,
  912751261319168121430185658456673875525769712991196301317606750096321736441250932275498721344,
  664283984690429042752,
  912751261319168121430185658456673875525769712991196301317606750096321736586483576008895897664,
  811821345670572023872,
  912751261319168121430185658456673875525769712991196301317606750096321736438945652216238448704,
  664283421877914574912,
  912751261319168121430185658456673875525769712991196301317606750096321736588788856068156170304,
  811821908483086491712,
  912751261319168121430185658456673875525769712991196301317606750096321736441250932275498721344,
  664283984690429042752,
  912751261319168121430185658456673875525769712991196301317606750096321736588788856068156170304,
  811821908483086491712,
  912751261319168121430185658456673875525769712991196301317606750096321736586483576008895897664,
  811821345670572023872,
  912751261319168121430185658456673875525769712991196301317606750096321736588788856068156170304,
  811821908483086491712,
  912751261319168121430185658456673875525769712991196301317606750096321736588788856068156170304,
  811821908483086491712,
  912751261319168121430185658456673875525769712991196301317606750096321736441250932275498721344,
  664283984690429042752,
  912751261319168121430185658456673875525769712991196301317606750096321736586483576008895897664,
  811821345670572023872,
  912751261319168121430185658456673875525769712991196301317606750096321736438945652216238448704,
  664283421877914574912,
  912751261319168121430185658456673875525769712991196301317606750096321736588788856068156170304,
  811821908483086491712,
  912751261319168121430185658456673875525769712991196301317606750096321736441250932275498721344,
  664283984690429042752,
  1173555523664242793162742595500837073207890525767738201906865107002724866931427729759688990784,
  665004551793913110592,
  1173555523664242793162742595500837073207890525767738201906865107002724867374041501137661337664,
  812578504381442039872,
  1173555523664242793162742595500837073207890525767738201906865107002724866929122449700428718144,
  665003988981398642752,
  1173555523664242793162742595500837073207890525767738201906865107002724867371736221078401065024,
  812577941568927572032,
  1173555523664242793162742595500837073207890525767738201906865107002724866931427729759688990784,
  665004551793913110592,
  1173555523664242793162742595500837073207890525767738201906865107002724867374041501137661337664,
  812578504381442039872,
  1173555523664242793162742595500837073207890525767738201906865107002724866931427729759688990784,
  665004551793913110592,
  1173555523664242793162742595500837073207890525767738201906865107002724867374041501137661337664,
  812578504381442039872,
  1173555523664242793162742595500837073207890525767738201906865107002724866929122449700428718144,
  665003988981398642752,
  1173555523664242793162742595500837073207890525767738201906865107002724867371736221078401065024,
  812577941568927572032,
  1173555523664242793162742595500837073207890525767738201906865107002724866931427729759688990784,
  665004551793913110592,
  1173555523664242793162742595500837073207890525767738201906865107002724867374041501137661337664,
  812578504381442039872,
  912751261319168121430185658456673875525769712991196301317606750096321736588788856068156170304,
  811821908483086491712,
  912751261319168121430185658456673875525769712991196301317606750096321736586483576008895897664,
  811821345670572023872,
  912751261319168121430185658456673875525769712991196301317606750096321736588788856068156170304,
  811821908483086491712,
  1173555523664242793162742595500837073207890525767738201906865107002724866931427729759688990784,
  665004551793913110592,
  1173555523664242793162742595500837073207890525767738201906865107002724867374041501137661337664,
  812578504381442039872,
  1173555523664242793162742595500837073207890525767738201906865107002724866929122449700428718144,
  665003988981398642752,
  1173555523664242793162742595500837073207890525767738201906865107002724867371736221078401065024,
  812577941568927572032,
  1173555523664242793162742595500837073207890525767738201906865107002724866931427729759688990784,
  665004551793913110592,
  1173555523664242793162742595500837073207890525767738201906865107002724867374041501137661337664,
  812578504381442039872,
  912751261319168121430185658456673875525769712991196301317606750096321736588788856068156170304,
  811821908483086491712,
  912751261319168121430185658456673875525769712991196301317606750096321736441250932275498721344,
  664283984690429042752,
  912751261319168121430185658456673875525769712991196301317606750096321736588788856068156170304,
  811821908483086491712,
  912751261319168121430185658456673875525769712991196301317606750096321736588788856068156170304,
  811821908483086491712,
  912751261319168121430185658456673875525769712991196301317606750096321736441250932275498721344,
  664283984690429042752,
  1173555523664242793162742595500837073207890525767738201906865107002724866931427729759688990784,
  665004551793913110592,
  1173555523664242793162742595500837073207890525767738201906865107002724867374041501137661337664,
  812578504381442039872,
  1173555523664242793162742595500837073207890525767738201906865107002724866931427729759688990784,
  665004551793913110592,
  1173555523664242793162742595500837073207890525767738201906865107002724867374041501137661337664,
  812578504381442039872,
  912751261319168121430185658456673875525769712991196301317606750096321736588788856068156170304,
  811821908483086491712,
  1173555523664242793162742595500837073207890525767738201906865107002724866931427729759688990784,
  665004551793913110592,
  1173555523664242793162742595500837073207890525767738201906865107002724867374041501137661337664,
  812578504381442039872,
  9316298644083449920,
  9352309851063853120,
  9316298644083441730,
  9352309851063844930,
  9316298644082925760,
  9352309851063328960,
  9316298644082917570,
  9352309851063320770,
  7010455909714108480,
  9351184363440316480,
  7010455909714100290,
  9351184363440308290,
  7010455909713584320,
  9351184363439792320,
  7010455909713576130,
  9351184363439784130,
  664211188039189012544,
  516709284247457505344,
  664211188039189004354,
  516709284247457497154,
  664211188039188488384,
  516709284247456981184,
  664211188039188480194,
  516709284247456972994,
  9314609931729248320,
  4740623970108973120,
  9314609931729240130,
  4740623970108964930,
  9314609931728724160,
  4740623970108448960,
  9314609931728715970,
  4740623970108440770,
  7010455634903310400,
  9350621413520449600,
  7010455634903302210,
  9350621413520441410,
  7010455634902786240,
  9350621413519925440,
  7010455634902778050,
  9350621413519917250,
  664211187901783613504,
  516709284110052106304,
  664211187901783605314,
  516709284110052098114,
  664211187901783089344,
  516709284110051582144,
  664211187901783081154,
  516709284110051573954,
  11620453078314786880,
  11657026960404258880,
  11620453078314778690,
  11657026960404250690,
  11620453078314262720,
  11657026960403734720,
  11620453078314254530,
  11657026960403726530,
  11621578840749121600,
  11657590047729524800,
  11621578840749113410,
  11657590047729516610,
  11621578840748597440,
  11657590047729000640,
  11621578840748589250,
  11657590047728992450,
  9387221952257335360,
  7082504705511530560,
  9387221952257327170,
  7082504705511522370,
  9387221952256811200,
  7082504705511006400,
  9387221952256803010,
  7082504705510998210,
  664282093484661022784,
  664282656159770091584,
  664282093484661014594,
  664282656159770083394,
  664282093484660498624,
  664282656159769567424,
  664282093484660490434,
  664282656159769559234,
  516708158485023170624,
  664210624951863746624,
  516708158485023162434,
  664210624951863738434,
  516708158485022646464,
  664210624951863222464,
  516708158485022638274,
  664210624951863214274,
  9387221540041138240,
  4776661696331391040,
  9387221540041130050,
  4776661696331382850,
  9387221540040614080,
  4776661696330866880,
  9387221540040605890,
  4776661696330858690,
  7080815993157328960,
  7080815993157328960,
  7080815993157320770,
  7080815993157320770,
  7080815993156804800,
  7080815993156804800,
  7080815993156796610,
  7080815993156796610,
  664282093484661022784,
  664282656159770091584,
  664282093484661014594,
  664282656159770083394,
  664282093484660498624,
  664282656159769567424,
  664282093484660490434,
  664282656159769559234,
  516708158485023170624,
  664210624951863746624,
  516708158485023162434,
  664210624951863738434,
  516708158485022646464,
  664210624951863222464,
  516708158485022638274,
  664210624951863214274,
  9316298644083449920,
  9352309851063853120,
  9316298644083441730,
  9352309851063844930,
  9316298644082925760,
  9352309851063328960,
  9316298644082917570,
  9352309851063320770,
  7010455909714108480,
  9351184363440316480,
  7010455909714100290,
  9351184363440308290,
  7010455909713584320,
  9351184363439792320,
  7010455909713576130,
  9351184363439784130,
  664211161657352396864,
  369135331659928576064,
  664211161657352388674,
  369135331659928567874,
  664211161657351872704,
  369135331659928051904,
  664211161657351864514,
  369135331659928043714,
  516601206656788602944,
  516601206656788602944,
  516601206656788594754,
  516601206656788594754,
  516601206656788078784,
  516601206656788078784,
  516601206656788070594,
  516601206656788070594,
  9388347439880872000,
  9388347439880872000,
  9388347439880863810,
  9388347439880863810,
  9388347439880347840,
  9388347439880347840,
  9388347439880339650,
  9388347439880339650,
  7082504705511530560,
  9387221952257335360,
  7082504705511522370,
  9387221952257327170,
  7082504705511006400,
  9387221952256811200,
  7082504705510998210,
  9387221952256803010,
  664283219247095357504,
  664283219247095357504,
  664283219247095349314,
  664283219247095349314,
  664283219247094833344,
  664283219247094833344,
  664283219247094825154,
  664283219247094825154,
  516709284247457505344,
  664211188039189012544,
  516709284247457497154,
  664211188039189004354,
  516709284247456981184,
  664211188039188488384,
  516709284247456972994,
  664211188039188480194,
  7080815993157328960,
  7080815993157328960,
  7080815993157320770,
  7080815993157320770,
  7080815993156804800,
  7080815993156804800,
  7080815993156796610,
  7080815993156796610,
  664282093484661022784,
  664282656159770091584,
  664282093484661014594,
  664282656159770083394,
  664282093484660498624,
  664282656159769567424,
  664282093484660490434,
  664282656159769559234,
  516708158485023170624,
  664210624951863746624,
  516708158485023162434,
  664210624951863738434,
  516708158485022646464,
  664210624951863222464,
  516708158485022638274,
  664210624951863214274,
  9314609931729248320,
  4740623970108973120,
  9314609931729240130,
  4740623970108964930,
  9314609931728724160,
  4740623970108448960,
  9314609931728715970,
  4740623970108440770,
  7010455634903310400,
  9350621413520449600,
  7010455634903302210,
  9350621413520441410,
  7010455634902786240,
  9350621413519925440,
  7010455634902778050,
  9350621413519917250]
def wnT2T3_mat_cert_8 : List Nat := [664211161519946997824,
  369135331522523177024,
  664211161519946989634,
  369135331522523168834,
  664211161519946473664,
  369135331522522652864,
  664211161519946465474,
  369135331522522644674,
  516601206519383203904,
  516601206519383203904,
  516601206519383195714,
  516601206519383195714,
  516601206519382679744,
  516601206519382679744,
  516601206519382671554,
  516601206519382671554,
  9386658727526670400,
  4776661558925992000,
  9386658727526662210,
  4776661558925983810,
  9386658727526146240,
  4776661558925467840,
  9386658727526138050,
  4776661558925459650,
  7082504430700732480,
  9386659002337468480,
  7082504430700724290,
  9386659002337460290,
  7082504430700208320,
  9386659002336944320,
  7082504430700200130,
  9386659002336936130,
  664283219109689958464,
  664283219109689958464,
  664283219109689950274,
  664283219109689950274,
  664283219109689434304,
  664283219109689434304,
  664283219109689426114,
  664283219109689426114,
  516709284110052106304,
  664211187901783613504,
  516709284110052098114,
  664211187901783605314,
  516709284110051582144,
  664211187901783089344,
  516709284110051573954,
  664211187901783081154,
  11620453078314786880,
  11657026960404258880,
  11620453078314778690,
  11657026960404250690,
  11620453078314262720,
  11657026960403734720,
  11620453078314254530,
  11657026960403726530,
  11621578840749121600,
  11657590047729524800,
  11621578840749113410,
  11657590047729516610,
  11621578840748597440,
  11657590047729000640,
  11621578840748589250,
  11657590047728992450,
  9387213158311796800,
  7082495911565992000,
  9387213158311788610,
  7082495911565983810,
  9387213158311272640,
  7082495911565467840,
  9387213158311264450,
  7082495911565459650,
  664174015893992120384,
  369134759778657771584,
  664174015893992112194,
  369134759778657763394,
  664174015893991596224,
  369134759778657247424,
  664174015893991588034,
  369134759778657239234,
  516708140897132093504,
  664174596156992266304,
  516708140897132085314,
  664174596156992258114,
  516708140897131569344,
  664174596156991742144,
  516708140897131561154,
  664174596156991733954,
  811747977275466588224,
  811784551157556060224,
  811747977275466580034,
  811784551157556052034,
  811747977275466064064,
  811784551157555536064,
  811747977275466055874,
  811784551157555527874,
  811820026071264010304,
  811820588746373079104,
  811820026071264002114,
  811820588746373070914,
  811820026071263486144,
  811820588746372554944,
  811820026071263477954,
  811820588746372546754,
  9387212746095599680,
  4776652902385852480,
  9387212746095591490,
  4776652902385844290,
  9387212746095075520,
  4776652902385328320,
  9387212746095067330,
  4776652902385320130,
  7080807199211790400,
  7080807199211790400,
  7080807199211782210,
  7080807199211782210,
  7080807199211266240,
  7080807199211266240,
  7080807199211258050,
  7080807199211258050,
  664174015893992120384,
  369134759778657771584,
  664174015893992112194,
  369134759778657763394,
  664174015893991596224,
  369134759778657247424,
  664174015893991588034,
  369134759778657239234,
  516708140897132093504,
  664174596156992266304,
  516708140897132085314,
  664174596156992258114,
  516708140897131569344,
  664174596156991742144,
  516708140897131561154,
  664174596156991733954,
  811747977275466588224,
  811784551157556060224,
  811747977275466580034,
  811784551157556052034,
  811747977275466064064,
  811784551157555536064,
  811747977275466055874,
  811784551157555527874,
  811820026071264010304,
  811820588746373079104,
  811820026071264002114,
  811820588746373070914,
  811820026071263486144,
  811820588746372554944,
  811820026071263477954,
  811820588746372546754,
  9316298644083449920,
  9352309851063853120,
  9316298644083441730,
  9352309851063844930,
  9316298644082925760,
  9352309851063328960,
  9316298644082917570,
  9352309851063320770,
  7010455909714108480,
  9351184363440316480,
  7010455909714100290,
  9351184363440308290,
  7010455909713584320,
  9351184363439792320,
  7010455909713576130,
  9351184363439784130,
  516601206656788602944,
  516601206656788602944,
  516601206656788594754,
  516601206656788594754,
  516601206656788078784,
  516601206656788078784,
  516601206656788070594,
  516601206656788070594,
  9388338645935333440,
  9388338645935333440,
  9388338645935325250,
  9388338645935325250,
  9388338645934809280,
  9388338645934809280,
  9388338645934801090,
  9388338645934801090,
  7082495911565992000,
  9387213158311796800,
  7082495911565983810,
  9387213158311788610,
  7082495911565467840,
  9387213158311272640,
  7082495911565459650,
  9387213158311264450,
  664175141656426455104,
  369135322865983037504,
  664175141656426446914,
  369135322865983029314,
  664175141656425930944,
  369135322865982513344,
  664175141656425922754,
  369135322865982505154,
  516709266659566428224,
  664175159244317532224,
  516709266659566420034,
  664175159244317524034,
  516709266659565904064,
  664175159244317008064,
  516709266659565895874,
  664175159244316999874,
  7080807199211790400,
  7080807199211790400,
  7080807199211782210,
  7080807199211782210,
  7080807199211266240,
  7080807199211266240,
  7080807199211258050,
  7080807199211258050,
  664174015893992120384,
  369134759778657771584,
  664174015893992112194,
  369134759778657763394,
  664174015893991596224,
  369134759778657247424,
  664174015893991588034,
  369134759778657239234,
  516708140897132093504,
  664174596156992266304,
  516708140897132085314,
  664174596156992258114,
  516708140897131569344,
  664174596156991742144,
  516708140897131561154,
  664174596156991733954,
  811820026071264010304,
  811820588746373079104,
  811820026071264002114,
  811820588746373070914,
  811820026071263486144,
  811820588746372554944,
  811820026071263477954,
  811820588746372546754,
  811820026071264010304,
  811820588746373079104,
  811820026071264002114,
  811820588746373070914,
  811820026071263486144,
  811820588746372554944,
  811820026071263477954,
  811820588746372546754,
  9314609931729248320,
  4740623970108973120,
  9314609931729240130,
  4740623970108964930,
  9314609931728724160,
  4740623970108448960,
  9314609931728715970,
  4740623970108440770,
  7010455634903310400,
  9350621413520449600,
  7010455634903302210,
  9350621413520441410,
  7010455634902786240,
  9350621413519925440,
  7010455634902778050,
  9350621413519917250,
  516601206519383203904,
  516601206519383203904,
  516601206519383195714,
  516601206519383195714,
  516601206519382679744,
  516601206519382679744,
  516601206519382671554,
  516601206519382671554,
  9387212746095599680,
  4776652902385852480,
  9387212746095591490,
  4776652902385844290,
  9387212746095075520,
  4776652902385328320,
  9387212746095067330,
  4776652902385320130,
  7082495636755193920,
  9386650208391929920,
  7082495636755185730,
  9386650208391921730,
  7082495636754669760,
  9386650208391405760,
  7082495636754661570,
  9386650208391397570,
  664211161519946997824,
  369135331522523177024,
  664211161519946989634,
  369135331522523168834,
  664211161519946473664,
  369135331522522652864,
  664211161519946465474,
  369135331522522644674,
  516709266522161029184,
  664175159106912133184,
  516709266522161020994,
  664175159106912124994,
  516709266522160505024,
  664175159106911609024,
  516709266522160496834,
  664175159106911600834,
  11621578840749121600,
  11657590047729524800,
  11621578840749113410,
  11657590047729516610,
  11621578840748597440,
  11657590047729000640,
  11621578840748589250,
  11657590047728992450,
  11621578840749121600,
  11657590047729524800,
  11621578840749113410,
  11657590047729516610,
  11621578840748597440,
  11657590047729000640,
  11621578840748589250,
  11657590047728992450]

/-- Check wnT2T3_mat. C77 -/
theorem wnT2T3_mat : isZero kinds [aᵥ, bᵥ, iₒ, jₒ] 2304
    (Prog.rep 71 39 [2, 3, 0, 1] (Wick.matP ⟨1, [⟨71, [8, 10, 9, 11]⟩], [(true, 0), (true, 2), (false, 3), (false, 1), (true, 8), (true, 10), (false, 11), (false, 9)]⟩ [1, 3, 0, 2] [(1/2304, [2, 3], .fluct)]) ++ (Prog.scale (-1) (Prog.outs [2, 3, 0, 1] (wnT2T3_toT2))))
    (wnT2T3_mat_cert_0 ++ (wnT2T3_mat_cert_1 ++ (wnT2T3_mat_cert_2 ++ (wnT2T3_mat_cert_3 ++ (wnT2T3_mat_cert_4 ++ (wnT2T3_mat_cert_5 ++ (wnT2T3_mat_cert_6 ++ (wnT2T3_mat_cert_7 ++ (wnT2T3_mat_cert_8))))))))) = true := by decide +kernel

end Verif.Cert
