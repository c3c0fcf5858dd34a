import Verif.Ein.FlipProg
import Verif.Gen.SiCcdqT4_1
import Verif.Gen.SiCcdqT4_3

/-! Written by `/verif/tools/gen.py`. Checks of einsum programs. -/

set_option maxRecDepth 100000

namespace Verif.Cert

open Verif.Ein Verif.Ein.N


open Verif.Gen

def ccdq_t4_aaabaaab_flip_cert_0 : List Nat := [2283003892736064,
  2283003892736064,
  2283003892736064,
  2283003892736064,
  2283003892736064,
  2283003892736064,
  2283003892727874,
  2283003892727874,
  162160790664388672,
  162160790664388672,
  162160790663864512,
  162160790663864512,
  162160790664388672,
  162160790664388672,
  162160790664388672,
  162160790664388672,
  11531498049961205824,
  11531498049961205824,
  11531498049927659584,
  11531498049927659584,
  9226217990700933184,
  9226217990700933184,
  9226217990667386944,
  9226217990667386944,
  11531498049961205824,
  11531498049961205824,
  9226217990700933184,
  9226217990700933184,
  9226217990700933184,
  9226217990700933184,
  9226217990700933184,
  9226217990700933184,
  9226217990633824324,
  9226217990633824324,
  164412590478073920,
  164412590478073920,
  164412590477549760,
  164412590477549760,
  164412590478073920,
  164412590478073920,
  164412590477549760,
  164412590477549760,
  164412590478073920,
  164412590478073920,
  164412590477549760,
  164412590477549760,
  164412590478073920,
  164412590478073920,
  164412590478065730,
  164412590478065730,
  164412590477549760,
  164412590477549760,
  164412590477541570,
  164412590477541570,
  164412590478073920,
  164412590478073920,
  164412590478065730,
  164412590478065730,
  164412590477549760,
  164412590477549760,
  164412590477541570,
  164412590477541570,
  164412590478073920,
  164412590478073920,
  164412590478073920,
  164412590478073920,
  164412590478073920,
  164412590478073920,
  164412590478073920,
  164412590478073920,
  164412590478073920,
  164412590478073920,
  164412590478073920,
  164412590478073920,
  164412590478073920,
  164412590478073920,
  164412590478065730,
  164412590478065730,
  164412590478073920,
  164412590478073920,
  164412590478065730,
  164412590478065730,
  164412590478073920,
  164412590478073920,
  164412590478065730,
  164412590478065730,
  811818900033884659776,
  811818900033884659776,
  811818900031737700416,
  811818900031737700416,
  664280976241227210816,
  664280976241227210816,
  664280976241226686656,
  664280976241226686656,
  811818900033884659776,
  811818900033884659776,
  811818900033884135616,
  811818900033884135616,
  811818900033884659776,
  811818900033884659776,
  664280976241227210816,
  664280976241227210816,
  811818900033884659776,
  811818900033884659776,
  673507163027849093184,
  673507163027849093184,
  821045086820506542144,
  821045086820506542144,
  823350366879766814784,
  823350366879766814784,
  823350366879766814784,
  823350366879766814784,
  675812443087109365824,
  675812443087109365824,
  823350366879766814784,
  823350366879766814784,
  823350366879766814784,
  823350366879766814784,
  823350366879766806594,
  823350366879766806594,
  675812443087109365824,
  675812443087109365824,
  675812443087109357634,
  675812443087109357634,
  823350366879766814784,
  823350366879766814784,
  823350366879766806594,
  823350366879766806594,
  675812443087109365824,
  675812443087109365824,
  675812443087075819584,
  675812443087075819584,
  673507163027849093184,
  673507163027849093184,
  673507163027815546944,
  673507163027815546944,
  823350366879766814784,
  823350366879766814784,
  823350366879733268544,
  823350366879733268544,
  821045086820506542144,
  821045086820506542144,
  821045086820472995904,
  821045086820472995904,
  675812443087109365824,
  675812443087109365824,
  673507163027849093184,
  673507163027849093184,
  823350366879766814784,
  823350366879766814784,
  821045086820506542144,
  821045086820506542144,
  821045086820506542144,
  821045086820506542144,
  821045086820506542144,
  821045086820506542144,
  821045086820439433284,
  821045086820439433284,
  821045086820506542144,
  821045086820506542144,
  821045086820506017984,
  821045086820506017984,
  823350366879766814784,
  823350366879766814784,
  823350366879766290624,
  823350366879766290624,
  821045086820506542144,
  821045086820506542144,
  821045086820506017984,
  821045086820506017984,
  821045086820506542144,
  821045086820506542144,
  821045086820506017984,
  821045086820506017984,
  823350366879766814784,
  823350366879766814784,
  823350366879766290624,
  823350366879766290624,
  673507163027849093184,
  673507163027849093184,
  673507163027848569024,
  673507163027848569024,
  823350366879766814784,
  823350366879766814784,
  823350366879766290624,
  823350366879766290624,
  823350366879766814784,
  823350366879766814784,
  823350366879766290624,
  823350366879766290624,
  823350366879766814784,
  823350366879766814784,
  823350366879766806594,
  823350366879766806594,
  823350366879766290624,
  823350366879766290624,
  823350366879766282434,
  823350366879766282434,
  673507163027849093184,
  673507163027849093184,
  673507163027849084994,
  673507163027849084994,
  673507163027848569024,
  673507163027848569024,
  673507163027848560834,
  673507163027848560834,
  823350366879766814784,
  823350366879766814784,
  823350366879766806594,
  823350366879766806594,
  823350366879766290624,
  823350366879766290624,
  823350366879766282434,
  823350366879766282434,
  823350366879766814784,
  823350366879766814784,
  823350366879766806594,
  823350366879766806594,
  823350366879766290624,
  823350366879766290624,
  823350366879766282434,
  823350366879766282434,
  823350366879766814784,
  823350366879766814784,
  823350366879733268544,
  823350366879733268544,
  823350366879766290624,
  823350366879766290624,
  823350366879732744384,
  823350366879732744384,
  821045086820506542144,
  821045086820506542144,
  821045086820472995904,
  821045086820472995904,
  821045086820506017984,
  821045086820506017984,
  821045086820472471744,
  821045086820472471744,
  821045086820506542144,
  821045086820506542144,
  821045086820472995904,
  821045086820472995904,
  821045086820506017984,
  821045086820506017984,
  821045086820472471744,
  821045086820472471744,
  823350366879766814784,
  823350366879766814784,
  823350366879766290624,
  823350366879766290624,
  821045086820506542144,
  821045086820506542144,
  821045086820506017984,
  821045086820506017984,
  821045086820506542144,
  821045086820506542144,
  821045086820506017984,
  821045086820506017984,
  821045086820506542144,
  821045086820506542144,
  821045086820506017984,
  821045086820506017984,
  675812443087109365824,
  675812443087109365824,
  675812443087108841664,
  675812443087108841664,
  673507163027849093184,
  673507163027849093184,
  673507163027848569024,
  673507163027848569024,
  821045086820506542144,
  821045086820506542144,
  821045086820439433284,
  821045086820439433284,
  821045086820506017984,
  821045086820506017984,
  821045086820438909124,
  821045086820438909124,
  675812443087109365824,
  675812443087109365824,
  675812443087042256964,
  675812443087042256964,
  675812443087108841664,
  675812443087108841664,
  675812443087041732804,
  675812443087041732804,
  673507163027849093184,
  673507163027849093184,
  673507163027781984324,
  673507163027781984324,
  673507163027848569024,
  673507163027848569024,
  673507163027781460164,
  673507163027781460164,
  821045086820506542144,
  821045086820506542144,
  823350366879766814784,
  823350366879766814784,
  821045086820506542144,
  821045086820506542144,
  675812443087109365824,
  675812443087109365824,
  673507163027849093184,
  673507163027849093184,
  821045086820506542144,
  821045086820506542144,
  821045086820506542144,
  821045086820506542144,
  823350366879766814784,
  823350366879766814784,
  673507163027849093184,
  673507163027849093184,
  823350366879766814784,
  823350366879766814784,
  823350366879766814784,
  823350366879766814784,
  823350366879766814784,
  823350366879766814784,
  673507163027849093184,
  673507163027849093184,
  823350366879766814784,
  823350366879766814784,
  823350366879766814784,
  823350366879766814784,
  675812443087109365824,
  675812443087109365824,
  823350366879766814784,
  823350366879766814784,
  823350366879766806594,
  823350366879766806594,
  673507163027849093184,
  673507163027849093184,
  673507163027849084994,
  673507163027849084994,
  823350366879766814784,
  823350366879766814784,
  823350366879766806594,
  823350366879766806594,
  823350366879766814784,
  823350366879766814784,
  823350366879766806594,
  823350366879766806594,
  675812443087109365824,
  675812443087109365824,
  675812443087109357634,
  675812443087109357634,
  823350366879766814784,
  823350366879766814784,
  823350366879733268544,
  823350366879733268544,
  821045086820506542144,
  821045086820506542144,
  821045086820472995904,
  821045086820472995904,
  821045086820506542144,
  821045086820506542144,
  821045086820472995904,
  821045086820472995904,
  821045086820506542144,
  821045086820506542144,
  821045086820472995904,
  821045086820472995904,
  675812443087109365824,
  675812443087109365824,
  675812443087075819584,
  675812443087075819584,
  673507163027849093184,
  673507163027849093184,
  673507163027815546944,
  673507163027815546944,
  823350366879766814784,
  823350366879766814784,
  821045086820506542144,
  821045086820506542144,
  821045086820506542144,
  821045086820506542144,
  821045086820506542144,
  821045086820506542144,
  675812443087109365824,
  675812443087109365824,
  673507163027849093184,
  673507163027849093184,
  821045086820506542144,
  821045086820506542144,
  675812443087109365824,
  675812443087109365824,
  673507163027849093184,
  673507163027849093184,
  821045086820506542144,
  821045086820506542144,
  821045086820439433284,
  821045086820439433284,
  675812443087109365824,
  675812443087109365824,
  675812443087042256964,
  675812443087042256964,
  673507163027849093184,
  673507163027849093184,
  673507163027781984324,
  673507163027781984324]
def ccdq_t4_aaabaaab_flip_cert_1 : List Nat := [821045086820506542144,
  821045086820506542144,
  821045086818359582784,
  821045086818359582784,
  823350366879766814784,
  823350366879766814784,
  823350366877619855424,
  823350366877619855424,
  673507163027849093184,
  673507163027849093184,
  673507163025702133824,
  673507163025702133824,
  821045086820506542144,
  821045086820506542144,
  821045086818359582784,
  821045086818359582784,
  823350366879766814784,
  823350366879766814784,
  823350366879766806594,
  823350366879766806594,
  823350366877619855424,
  823350366877619855424,
  823350366877619847234,
  823350366877619847234,
  673507163027849093184,
  673507163027849093184,
  673507163027849084994,
  673507163027849084994,
  673507163025702133824,
  673507163025702133824,
  673507163025702125634,
  673507163025702125634,
  821045086820506542144,
  821045086820506542144,
  821045086820506533954,
  821045086820506533954,
  821045086818359582784,
  821045086818359582784,
  821045086818359574594,
  821045086818359574594,
  675812443087109365824,
  675812443087109365824,
  675812443087108841664,
  675812443087108841664,
  823350366879766814784,
  823350366879766814784,
  823350366879766290624,
  823350366879766290624,
  673507163027849093184,
  673507163027849093184,
  673507163027848569024,
  673507163027848569024,
  821045086820506542144,
  821045086820506542144,
  821045086820506017984,
  821045086820506017984,
  823350366879766814784,
  823350366879766814784,
  823350366879766290624,
  823350366879766290624,
  673507163027849093184,
  673507163027849093184,
  673507163027848569024,
  673507163027848569024,
  821045086820506542144,
  821045086820506542144,
  821045086820506017984,
  821045086820506017984,
  675812443087109365824,
  675812443087109365824,
  675812443087108841664,
  675812443087108841664,
  823350366879766814784,
  823350366879766814784,
  823350366879766290624,
  823350366879766290624,
  823350366879766814784,
  823350366879766814784,
  823350366879766290624,
  823350366879766290624,
  675812443087109365824,
  675812443087109365824,
  675812443087109357634,
  675812443087109357634,
  675812443087108841664,
  675812443087108841664,
  675812443087108833474,
  675812443087108833474,
  823350366879766814784,
  823350366879766814784,
  823350366879766806594,
  823350366879766806594,
  823350366879766290624,
  823350366879766290624,
  823350366879766282434,
  823350366879766282434,
  823350366879766814784,
  823350366879766814784,
  823350366879766806594,
  823350366879766806594,
  823350366879766290624,
  823350366879766290624,
  823350366879766282434,
  823350366879766282434,
  821045086820506542144,
  821045086820506542144,
  675812443087109365824,
  675812443087109365824,
  823350366879766814784,
  823350366879766814784,
  673507163027849093184,
  673507163027849093184,
  821045086820506542144,
  821045086820506542144,
  823350366879766814784,
  823350366879766814784,
  673507163027849093184,
  673507163027849093184,
  821045086820506542144,
  821045086820506542144,
  823350366879766814784,
  823350366879766814784,
  673507163027849093184,
  673507163027849093184,
  821045086820506542144,
  821045086820506542144,
  675812443087109365824,
  675812443087109365824,
  823350366879766814784,
  823350366879766814784,
  823350366879766814784,
  823350366879766814784,
  823350366879766814784,
  823350366879766814784,
  823350366879766806594,
  823350366879766806594,
  673507163027849093184,
  673507163027849093184,
  673507163027849084994,
  673507163027849084994,
  821045086820506542144,
  821045086820506542144,
  821045086820506533954,
  821045086820506533954,
  675812443087109365824,
  675812443087109365824,
  675812443087109357634,
  675812443087109357634,
  823350366879766814784,
  823350366879766814784,
  823350366879766806594,
  823350366879766806594,
  823350366879766814784,
  823350366879766814784,
  823350366879766806594,
  823350366879766806594,
  9226217990700933184,
  9226217990700933184,
  9226217990700924994,
  9226217990700924994,
  9226217988553973824,
  9226217988553973824,
  9226217988553965634,
  9226217988553965634,
  11531498049961205824,
  11531498049961205824,
  11531498049961197634,
  11531498049961197634,
  9226217990700933184,
  9226217990700933184,
  9226217990633824324,
  9226217990633824324,
  9226217988553973824,
  9226217988553973824,
  9226217988486864964,
  9226217988486864964,
  11531498049961205824,
  11531498049961205824,
  11531498049894096964,
  11531498049894096964,
  9226217990700933184,
  9226217990700933184,
  9226217990667386944,
  9226217990667386944,
  9226217988553973824,
  9226217988553973824,
  9226217988520427584,
  9226217988520427584,
  11531498049961205824,
  11531498049961205824,
  11531498049927659584,
  11531498049927659584,
  9226217990700933184,
  9226217990700933184,
  9226217988553973824,
  9226217988553973824,
  11531498049961205824,
  11531498049961205824,
  9226217990700933184,
  9226217990700933184,
  9226217988553973824,
  9226217988553973824,
  11531498049961205824,
  11531498049961205824,
  9226217990700933184,
  9226217990700933184,
  9226217988553973824,
  9226217988553973824,
  11531498049961205824,
  11531498049961205824,
  164412590478073920,
  164412590478073920,
  164412590478065730,
  164412590478065730,
  164412588331114560,
  164412588331114560,
  164412588331106370,
  164412588331106370,
  164412590478073920,
  164412590478073920,
  164412588331114560,
  164412588331114560,
  164412590478073920,
  164412590478073920,
  164412588331114560,
  164412588331114560,
  164412590478073920,
  164412590478073920,
  164412590478065730,
  164412590478065730,
  164412588331114560,
  164412588331114560,
  164412588331106370,
  164412588331106370,
  164412590478073920,
  164412590478073920,
  164412590478065730,
  164412590478065730,
  164412590477549760,
  164412590477549760,
  164412590477541570,
  164412590477541570,
  164412590478073920,
  164412590478073920,
  164412590410965060,
  164412590410965060,
  164412588331114560,
  164412588331114560,
  164412588264005700,
  164412588264005700,
  164412590478073920,
  164412590478073920,
  164412590478065730,
  164412590478065730,
  164412588331114560,
  164412588331114560,
  164412588331106370,
  164412588331106370,
  164412590478073920,
  164412590478073920,
  164412590410965060,
  164412590410965060,
  164412590477549760,
  164412590477549760,
  164412590410440900,
  164412590410440900,
  164412590478073920,
  164412590478073920,
  164412590444527680,
  164412590444527680,
  164412588331114560,
  164412588331114560,
  164412588297568320,
  164412588297568320,
  164412590478073920,
  164412590478073920,
  164412590444527680,
  164412590444527680,
  164412590477549760,
  164412590477549760,
  164412590444003520,
  164412590444003520,
  164412590478073920,
  164412590478073920,
  164412590478065730,
  164412590478065730,
  164412586183106880,
  164412586183106880,
  164412586183098690,
  164412586183098690,
  164412590478073920,
  164412590478073920,
  164412586183106880,
  164412586183106880,
  164412590478073920,
  164412590478073920,
  164412586183106880,
  164412586183106880,
  164412590478073920,
  164412590478073920,
  164412590478065730,
  164412590478065730,
  164412586183106880,
  164412586183106880,
  164412586183098690,
  164412586183098690,
  164412590478073920,
  164412590478073920,
  164412590410965060,
  164412590410965060,
  164412586183106880,
  164412586183106880,
  164412586115998020,
  164412586115998020,
  164412590478073920,
  164412590478073920,
  164412590478065730,
  164412590478065730,
  164412586183106880,
  164412586183106880,
  164412586183098690,
  164412586183098690,
  164412590478073920,
  164412590478073920,
  164412590444527680,
  164412590444527680,
  164412586183106880,
  164412586183106880,
  164412586149560640,
  164412586149560640,
  164412590478073920,
  164412590478073920,
  164412590478065730,
  164412590478065730,
  164412590477549760,
  164412590477549760,
  164412590477541570,
  164412590477541570,
  164412590478073920,
  164412590478073920,
  164412590477549760,
  164412590477549760,
  164412590478073920,
  164412590478073920,
  164412590477549760,
  164412590477549760,
  164412590478073920,
  164412590478073920,
  164412590478065730,
  164412590478065730,
  164412590478073920,
  164412590478073920,
  164412590478073920,
  164412590478073920,
  164412590478065730,
  164412590478065730,
  164412590477549760,
  164412590477549760,
  164412590477541570,
  164412590477541570,
  164412590478073920,
  164412590478073920,
  164412590478065730,
  164412590478065730,
  164412590478073920,
  164412590478073920,
  164412590478065730,
  164412590478065730,
  164412590478073920,
  164412590478073920,
  164412590410965060,
  164412590410965060,
  164412590477549760,
  164412590477549760,
  164412590410440900,
  164412590410440900,
  164412590478073920,
  164412590478073920,
  164412590478065730,
  164412590478065730,
  164412590477549760,
  164412590477549760,
  164412590477541570,
  164412590477541570,
  164412590478073920,
  164412590478073920,
  164412590410965060,
  164412590410965060,
  164412590478073920,
  164412590478073920,
  164412590410965060,
  164412590410965060,
  164412590478073920,
  164412590478073920,
  164412590444527680,
  164412590444527680,
  164412590477549760,
  164412590477549760,
  164412590444003520,
  164412590444003520]
def ccdq_t4_aaabaaab_flip_cert_2 : List Nat := [164412590478073920,
  164412590478073920,
  164412590444527680,
  164412590444527680,
  164412590478073920,
  164412590478073920,
  164412590444527680,
  164412590444527680,
  164412590478073920,
  164412590478073920,
  164412590478065730,
  164412590478065730,
  164412590477549760,
  164412590477549760,
  164412590477541570,
  164412590477541570,
  164412590478073920,
  164412590478073920,
  164412590477549760,
  164412590477549760,
  164412590478073920,
  164412590478073920,
  164412590478065730,
  164412590478065730,
  164412590477549760,
  164412590477549760,
  164412590477541570,
  164412590477541570,
  164412590478073920,
  164412590478073920,
  164412590410965060,
  164412590410965060,
  164412590477549760,
  164412590477549760,
  164412590410440900,
  164412590410440900,
  164412590478073920,
  164412590478073920,
  164412590444527680,
  164412590444527680,
  164412590477549760,
  164412590477549760,
  164412590444003520,
  164412590444003520,
  664280976241227210816,
  664280976241227210816,
  664280976239080251456,
  664280976239080251456,
  664280976241227210816,
  664280976241227210816,
  664280976241160101956,
  664280976241160101956,
  664280976239080251456,
  664280976239080251456,
  664280976239013142596,
  664280976239013142596,
  811818900033884659776,
  811818900033884659776,
  811818900033851113536,
  811818900033851113536,
  811818900033884135616,
  811818900033884135616,
  811818900033850589376,
  811818900033850589376,
  811818900033884659776,
  811818900033884659776,
  811818900033884135616,
  811818900033884135616,
  664280976241227210816,
  664280976241227210816,
  664280976241226686656,
  664280976241226686656,
  664280976241227210816,
  664280976241227210816,
  664280976241160101956,
  664280976241160101956,
  664280976241226686656,
  664280976241226686656,
  664280976241159577796,
  664280976241159577796,
  811818900033884659776,
  811818900033884659776,
  811818900033851113536,
  811818900033851113536,
  811818900033884659776,
  811818900033884659776,
  664280976241227210816,
  664280976241227210816,
  664280976241227210816,
  664280976241227210816,
  664280976241227210816,
  664280976241227210816,
  664280976241160101956,
  664280976241160101956,
  664280976241227210816,
  664280976241227210816,
  664280976241160101956,
  664280976241160101956,
  673507163027849093184,
  673507163027849093184,
  673507163027849084994,
  673507163027849084994,
  673507163025702133824,
  673507163025702133824,
  673507163025702125634,
  673507163025702125634,
  821045086820506542144,
  821045086820506542144,
  821045086820506533954,
  821045086820506533954,
  821045086818359582784,
  821045086818359582784,
  821045086818359574594,
  821045086818359574594,
  675812443087109365824,
  675812443087109365824,
  675812443087109357634,
  675812443087109357634,
  823350366879766814784,
  823350366879766814784,
  823350366879766806594,
  823350366879766806594,
  673507163027849093184,
  673507163027849093184,
  673507163027781984324,
  673507163027781984324,
  673507163025702133824,
  673507163025702133824,
  673507163025635024964,
  673507163025635024964,
  821045086820506542144,
  821045086820506542144,
  821045086820439433284,
  821045086820439433284,
  821045086818359582784,
  821045086818359582784,
  821045086818292473924,
  821045086818292473924,
  675812443087109365824,
  675812443087109365824,
  675812443087042256964,
  675812443087042256964,
  823350366879766814784,
  823350366879766814784,
  823350366879699705924,
  823350366879699705924,
  673507163027849093184,
  673507163027849093184,
  673507163027815546944,
  673507163027815546944,
  673507163025702133824,
  673507163025702133824,
  673507163025668587584,
  673507163025668587584,
  821045086820506542144,
  821045086820506542144,
  821045086820472995904,
  821045086820472995904,
  821045086818359582784,
  821045086818359582784,
  821045086818326036544,
  821045086818326036544,
  675812443087109365824,
  675812443087109365824,
  675812443087075819584,
  675812443087075819584,
  823350366879766814784,
  823350366879766814784,
  823350366879733268544,
  823350366879733268544,
  821045086820506542144,
  821045086820506542144,
  821045086818359582784,
  821045086818359582784,
  823350366879766814784,
  823350366879766814784,
  821045086820506542144,
  821045086820506542144,
  821045086818359582784,
  821045086818359582784,
  823350366879766814784,
  823350366879766814784,
  821045086820506542144,
  821045086820506542144,
  821045086818359582784,
  821045086818359582784,
  823350366879766814784,
  823350366879766814784,
  821045086820506542144,
  821045086820506542144,
  821045086820506533954,
  821045086820506533954,
  821045086818359582784,
  821045086818359582784,
  821045086818359574594,
  821045086818359574594,
  821045086820506542144,
  821045086820506542144,
  821045086818359582784,
  821045086818359582784,
  821045086820506542144,
  821045086820506542144,
  821045086818359582784,
  821045086818359582784,
  823350366879766814784,
  823350366879766814784,
  823350366877619855424,
  823350366877619855424,
  673507163027849093184,
  673507163027849093184,
  673507163027849084994,
  673507163027849084994,
  673507163025702133824,
  673507163025702133824,
  673507163025702125634,
  673507163025702125634,
  823350366879766814784,
  823350366879766814784,
  823350366879766806594,
  823350366879766806594,
  823350366877619855424,
  823350366877619855424,
  823350366877619847234,
  823350366877619847234,
  675812443087109365824,
  675812443087109365824,
  675812443087109357634,
  675812443087109357634,
  675812443087108841664,
  675812443087108841664,
  675812443087108833474,
  675812443087108833474,
  823350366879766814784,
  823350366879766814784,
  823350366879766806594,
  823350366879766806594,
  823350366879766290624,
  823350366879766290624,
  823350366879766282434,
  823350366879766282434,
  673507163027849093184,
  673507163027849093184,
  673507163027781984324,
  673507163027781984324,
  673507163025702133824,
  673507163025702133824,
  673507163025635024964,
  673507163025635024964,
  823350366879766814784,
  823350366879766814784,
  823350366879699705924,
  823350366879699705924,
  823350366877619855424,
  823350366877619855424,
  823350366877552746564,
  823350366877552746564,
  821045086820506542144,
  821045086820506542144,
  821045086820506533954,
  821045086820506533954,
  821045086818359582784,
  821045086818359582784,
  821045086818359574594,
  821045086818359574594,
  823350366879766814784,
  823350366879766814784,
  823350366879766806594,
  823350366879766806594,
  823350366877619855424,
  823350366877619855424,
  823350366877619847234,
  823350366877619847234,
  675812443087109365824,
  675812443087109365824,
  675812443087042256964,
  675812443087042256964,
  675812443087108841664,
  675812443087108841664,
  675812443087041732804,
  675812443087041732804,
  823350366879766814784,
  823350366879766814784,
  823350366879699705924,
  823350366879699705924,
  823350366879766290624,
  823350366879766290624,
  823350366879699181764,
  823350366879699181764,
  673507163027849093184,
  673507163027849093184,
  673507163027815546944,
  673507163027815546944,
  673507163025702133824,
  673507163025702133824,
  673507163025668587584,
  673507163025668587584,
  823350366879766814784,
  823350366879766814784,
  823350366879733268544,
  823350366879733268544,
  823350366877619855424,
  823350366877619855424,
  823350366877586309184,
  823350366877586309184,
  675812443087109365824,
  675812443087109365824,
  675812443087075819584,
  675812443087075819584,
  675812443087108841664,
  675812443087108841664,
  675812443087075295424,
  675812443087075295424,
  823350366879766814784,
  823350366879766814784,
  823350366879733268544,
  823350366879733268544,
  823350366879766290624,
  823350366879766290624,
  823350366879732744384,
  823350366879732744384,
  821045086820506542144,
  821045086820506542144,
  821045086820506533954,
  821045086820506533954,
  821045086818359582784,
  821045086818359582784,
  821045086818359574594,
  821045086818359574594,
  823350366879766814784,
  823350366879766814784,
  823350366879766806594,
  823350366879766806594,
  823350366877619855424,
  823350366877619855424,
  823350366877619847234,
  823350366877619847234,
  823350366879766814784,
  823350366879766814784,
  823350366879733268544,
  823350366879733268544,
  823350366877619855424,
  823350366877619855424,
  823350366877586309184,
  823350366877586309184,
  821045086820506542144,
  821045086820506542144,
  821045086820472995904,
  821045086820472995904,
  821045086818359582784,
  821045086818359582784,
  821045086818326036544,
  821045086818326036544,
  823350366879766814784,
  823350366879766814784,
  823350366879766806594,
  823350366879766806594,
  823350366879766290624,
  823350366879766290624,
  823350366879766282434,
  823350366879766282434,
  821045086820506542144,
  821045086820506542144,
  821045086820439433284,
  821045086820439433284,
  821045086818359582784,
  821045086818359582784,
  821045086818292473924,
  821045086818292473924,
  823350366879766814784,
  823350366879766814784,
  823350366879699705924,
  823350366879699705924,
  823350366877619855424,
  823350366877619855424,
  823350366877552746564,
  823350366877552746564,
  823350366879766814784,
  823350366879766814784,
  823350366879699705924,
  823350366879699705924,
  823350366879766290624,
  823350366879766290624,
  823350366879699181764,
  823350366879699181764,
  821045086820506542144,
  821045086820506542144,
  821045086820472995904,
  821045086820472995904,
  821045086818359582784,
  821045086818359582784,
  821045086818326036544,
  821045086818326036544,
  823350366879766814784,
  823350366879766814784,
  823350366879733268544,
  823350366879733268544,
  823350366877619855424,
  823350366877619855424,
  823350366877586309184,
  823350366877586309184]
def ccdq_t4_aaabaaab_flip_cert_3 : List Nat := [823350366879766814784,
  823350366879766814784,
  823350366877619855424,
  823350366877619855424,
  821045086820506542144,
  821045086820506542144,
  821045086818359582784,
  821045086818359582784,
  675812443087109365824,
  675812443087109365824,
  675812443084962406464,
  675812443084962406464,
  673507163027849093184,
  673507163027849093184,
  673507163025702133824,
  673507163025702133824,
  823350366879766814784,
  823350366879766814784,
  823350366879733268544,
  823350366879733268544,
  823350366879766290624,
  823350366879766290624,
  823350366879732744384,
  823350366879732744384,
  673507163027849093184,
  673507163027849093184,
  673507163027848569024,
  673507163027848569024,
  673507163027849093184,
  673507163027849093184,
  673507163025702133824,
  673507163025702133824,
  821045086820506542144,
  821045086820506542144,
  821045086818359582784,
  821045086818359582784,
  675812443087109365824,
  675812443087109365824,
  675812443084962406464,
  675812443084962406464,
  675812443087109365824,
  675812443087109365824,
  675812443087042256964,
  675812443087042256964,
  675812443084962406464,
  675812443084962406464,
  675812443084895297604,
  675812443084895297604,
  673507163027849093184,
  673507163027849093184,
  673507163027781984324,
  673507163027781984324,
  673507163025702133824,
  673507163025702133824,
  673507163025635024964,
  673507163025635024964,
  675812443087109365824,
  675812443087109365824,
  675812443087108841664,
  675812443087108841664,
  675812443087109365824,
  675812443087109365824,
  675812443087108841664,
  675812443087108841664,
  673507163027849093184,
  673507163027849093184,
  673507163027781984324,
  673507163027781984324,
  673507163027848569024,
  673507163027848569024,
  673507163027781460164,
  673507163027781460164,
  673507163027849093184,
  673507163027849093184,
  673507163025702133824,
  673507163025702133824,
  821045086820506542144,
  821045086820506542144,
  821045086818359582784,
  821045086818359582784,
  675812443087109365824,
  675812443087109365824,
  675812443084962406464,
  675812443084962406464,
  675812443087109365824,
  675812443087109365824,
  675812443087108841664,
  675812443087108841664,
  675812443087109365824,
  675812443087109365824,
  675812443087108841664,
  675812443087108841664,
  673507163027849093184,
  673507163027849093184,
  673507163025702133824,
  673507163025702133824,
  821045086820506542144,
  821045086820506542144,
  821045086818359582784,
  821045086818359582784,
  675812443087109365824,
  675812443087109365824,
  675812443084962406464,
  675812443084962406464,
  675812443087109365824,
  675812443087109365824,
  675812443087108841664,
  675812443087108841664,
  675812443087109365824,
  675812443087109365824,
  675812443087108841664,
  675812443087108841664,
  821045086820506542144,
  821045086820506542144,
  821045086820506533954,
  821045086820506533954,
  821045086820506542144,
  821045086820506542144,
  821045086820506542144,
  821045086820506542144,
  823350366879766814784,
  823350366879766814784,
  673507163027849093184,
  673507163027849093184,
  673507163027849084994,
  673507163027849084994,
  823350366879766814784,
  823350366879766814784,
  823350366879766806594,
  823350366879766806594,
  673507163027849093184,
  673507163027849093184,
  673507163027781984324,
  673507163027781984324,
  823350366879766814784,
  823350366879766814784,
  823350366879699705924,
  823350366879699705924,
  821045086820506542144,
  821045086820506542144,
  821045086820506533954,
  821045086820506533954,
  823350366879766814784,
  823350366879766814784,
  823350366879766806594,
  823350366879766806594,
  673507163027849093184,
  673507163027849093184,
  673507163027815546944,
  673507163027815546944,
  823350366879766814784,
  823350366879766814784,
  823350366879733268544,
  823350366879733268544,
  821045086820506542144,
  821045086820506542144,
  821045086820506533954,
  821045086820506533954,
  823350366879766814784,
  823350366879766814784,
  823350366879766806594,
  823350366879766806594,
  823350366879766814784,
  823350366879766814784,
  823350366879733268544,
  823350366879733268544,
  821045086820506542144,
  821045086820506542144,
  821045086820472995904,
  821045086820472995904,
  821045086820506542144,
  821045086820506542144,
  821045086820439433284,
  821045086820439433284,
  823350366879766814784,
  823350366879766814784,
  823350366879699705924,
  823350366879699705924,
  821045086820506542144,
  821045086820506542144,
  821045086820472995904,
  821045086820472995904,
  823350366879766814784,
  823350366879766814784,
  823350366879733268544,
  823350366879733268544,
  823350366879766814784,
  823350366879766814784,
  821045086820506542144,
  821045086820506542144,
  675812443087109365824,
  675812443087109365824,
  673507163027849093184,
  673507163027849093184,
  673507163027849093184,
  673507163027849093184,
  821045086820506542144,
  821045086820506542144,
  675812443087109365824,
  675812443087109365824,
  675812443087109365824,
  675812443087109365824,
  675812443087042256964,
  675812443087042256964,
  673507163027849093184,
  673507163027849093184,
  673507163027781984324,
  673507163027781984324,
  673507163027849093184,
  673507163027849093184,
  821045086820506542144,
  821045086820506542144,
  675812443087109365824,
  675812443087109365824,
  673507163027849093184,
  673507163027849093184,
  821045086820506542144,
  821045086820506542144,
  675812443087109365824,
  675812443087109365824,
  675812443087109365824,
  675812443087109365824,
  675812443087109357634,
  675812443087109357634,
  823350366879766814784,
  823350366879766814784,
  823350366879766806594,
  823350366879766806594,
  675812443087109365824,
  675812443087109365824,
  675812443087042256964,
  675812443087042256964,
  823350366879766814784,
  823350366879766814784,
  823350366879699705924,
  823350366879699705924,
  675812443087109365824,
  675812443087109365824,
  675812443087075819584,
  675812443087075819584,
  823350366879766814784,
  823350366879766814784,
  823350366879733268544,
  823350366879733268544,
  823350366879766814784,
  823350366879766814784,
  823350366879766806594,
  823350366879766806594,
  823350366879766814784,
  823350366879766814784,
  823350366879699705924,
  823350366879699705924,
  823350366879766814784,
  823350366879766814784,
  823350366879733268544,
  823350366879733268544,
  673507163027849093184,
  673507163027849093184,
  675812443087109365824,
  675812443087109365824,
  675812443087109365824,
  675812443087109365824,
  673507163027849093184,
  673507163027849093184,
  673507163027781984324,
  673507163027781984324,
  675812443087109365824,
  675812443087109365824,
  675812443087109365824,
  675812443087109365824,
  675812443087109365824,
  675812443087109365824,
  675812443087109365824,
  675812443087109365824,
  2274068179190214,
  2256205478379714,
  2273930773791174,
  2256205444833474,
  2274068179190214,
  2256205478379714,
  2274068179190214,
  2256205478379714,
  162151854950842822,
  162133992250032322,
  162151854950842822,
  162133992250032322,
  162151854950842822,
  162133992250032322,
  162143061005304262,
  162133990103072962,
  9226209054987387334,
  9226191192286576834,
  9226209054953841094,
  9226191192286568644,
  9226209054987387334,
  9226191192286576834,
  9226208917581988294,
  9226191192253030594,
  11531489114247659974,
  11531471251546849474,
  11531488976842260934,
  11531471251513303234,
  9226209054987387334,
  9226191192286576834,
  9226209054987387334,
  9226191192286576834,
  11531489114247659974,
  11531471251546849474,
  164403654764528070,
  164385792063717570,
  164403517359129030,
  164385792030171330,
  164403654764528070,
  164385792063717570,
  164403517359129030,
  164385792030171330,
  164403654764528070,
  164385792063717570,
  164403517359129030,
  164385792030171330,
  164403654764528070,
  164385792063717570,
  164403654764528070,
  164385792063717570,
  164403654764528070,
  164385792063717570,
  164403654764528070,
  164385792063717570,
  164403654764528070,
  164385792063717570,
  164403654764528070,
  164385792063717570,
  164403654764528070,
  164385792063717570,
  164403517359129030,
  164385792030171330,
  164394860818989510,
  164385789916758210,
  164394723413590470,
  164385789883211970,
  164403654764528070,
  164385792063717570,
  164403517359129030,
  164385792030171330,
  164394860818989510,
  164385789916758210,
  164394723413590470,
  164385789883211970,
  164403654764528070,
  164385792063717570,
  164394860818989510,
  164385789916758210,
  164403654764528070,
  164385792063717570,
  164394860818989510,
  164385789916758210,
  164403654764528070,
  164385792063717570,
  164394860818989510,
  164385789916758210,
  811818891098171113926,
  811818873235470303426,
  811818891096024154566,
  811818873235469779266,
  664280967305513664966,
  664280949442812854466,
  664280967303366705606,
  664280949442812330306,
  811818891098171113926,
  811818873235470303426,
  664280967305513664966,
  664280949442812854466,
  811818891098171113926,
  811818873235470303426,
  811818891098171113926,
  811818873235470303426,
  811818873505986118086,
  811818873231175336386,
  823350357944053268934,
  823350340081352458434,
  823350357806647869894,
  823350340081318912194,
  675812434151395819974,
  675812416288695009474,
  675812434013990420934,
  675812416288661463234,
  823350357944053268934,
  823350340081352458434,
  823350357806647869894,
  823350340081318912194,
  823350357944053268934,
  823350340081352458434,
  675812434151395819974,
  675812416288695009474,
  823350357944053268934,
  823350340081352458434,
  823350357944053268934,
  823350340081352458434,
  821045077884792996294,
  821045060022092185794]
def ccdq_t4_aaabaaab_flip_cert_4 : List Nat := [673507154092135547334,
  673507136229434736834,
  821045077884792996294,
  821045060022092185794,
  821045077884759450054,
  821045060022092177604,
  821045077884792996294,
  821045060022092185794,
  821045077747387597254,
  821045060022058639554,
  823350357944053268934,
  823350340081352458434,
  823350357806647869894,
  823350340081318912194,
  673507154092135547334,
  673507136229434736834,
  673507153954730148294,
  673507136229401190594,
  675812434151395819974,
  675812416288695009474,
  675812434013990420934,
  675812416288661463234,
  821045077884792996294,
  821045060022092185794,
  821045077884792996294,
  821045060022092185794,
  823350357944053268934,
  823350340081352458434,
  673507154092135547334,
  673507136229434736834,
  675812434151395819974,
  675812416288695009474,
  821045077884792996294,
  821045060022092185794,
  673507154092135547334,
  673507136229434736834,
  675812434151395819974,
  675812416288695009474,
  821045077884792996294,
  821045060022092185794,
  823350357944053268934,
  823350340081352458434,
  821045077884792996294,
  821045060022092185794,
  675812434151395819974,
  675812416288695009474,
  675812434013990420934,
  675812416288661463234,
  823350357944053268934,
  823350340081352458434,
  823350357806647869894,
  823350340081318912194,
  823350357944053268934,
  823350340081352458434,
  823350357806647869894,
  823350340081318912194,
  673507154092135547334,
  673507136229434736834,
  673507153954730148294,
  673507136229401190594,
  823350357944053268934,
  823350340081352458434,
  823350357806647869894,
  823350340081318912194,
  675812434151395819974,
  675812416288695009474,
  823350357944053268934,
  823350340081352458434,
  823350357944053268934,
  823350340081352458434,
  673507154092135547334,
  673507136229434736834,
  823350357944053268934,
  823350340081352458434,
  823350357944053268934,
  823350340081352458434,
  823350357944053268934,
  823350340081352458434,
  673507154092135547334,
  673507136229434736834,
  823350357944053268934,
  823350340081352458434,
  821045077884792996294,
  821045060022092185794,
  673507154092135547334,
  673507136229434736834,
  673507154092102001094,
  673507136229434728644,
  675812434151395819974,
  675812416288695009474,
  675812434151362273734,
  675812416288695001284,
  821045077884792996294,
  821045060022092185794,
  821045077884759450054,
  821045060022092177604,
  673507154092135547334,
  673507136229434736834,
  673507153954730148294,
  673507136229401190594,
  675812434151395819974,
  675812416288695009474,
  675812434013990420934,
  675812416288661463234,
  821045077884792996294,
  821045060022092185794,
  821045077747387597254,
  821045060022058639554,
  821045077884792996294,
  821045060022092185794,
  821045077747387597254,
  821045060022058639554,
  821045077884792996294,
  821045060022092185794,
  821045077747387597254,
  821045060022058639554,
  823350357944053268934,
  823350340081352458434,
  823350357806647869894,
  823350340081318912194,
  673507154092135547334,
  673507136229434736834,
  675812434151395819974,
  675812416288695009474,
  821045077884792996294,
  821045060022092185794,
  673507154092135547334,
  673507136229434736834,
  675812434151395819974,
  675812416288695009474,
  821045077884792996294,
  821045060022092185794,
  821045077884792996294,
  821045060022092185794,
  821045077884792996294,
  821045060022092185794,
  823350357944053268934,
  823350340081352458434,
  821045077884792996294,
  821045060022092185794,
  821045069090847457734,
  821045060019945226434,
  823350357944053268934,
  823350340081352458434,
  823350349150107730374,
  823350340079205499074,
  821045077884792996294,
  821045060022092185794,
  821045069090847457734,
  821045060019945226434,
  823350357944053268934,
  823350340081352458434,
  823350357806647869894,
  823350340081318912194,
  823350349150107730374,
  823350340079205499074,
  823350349012702331334,
  823350340079171952834,
  823350357944053268934,
  823350340081352458434,
  823350357806647869894,
  823350340081318912194,
  823350349150107730374,
  823350340079205499074,
  823350349012702331334,
  823350340079171952834,
  673507154092135547334,
  673507136229434736834,
  673507153954730148294,
  673507136229401190594,
  673507145298190008774,
  673507136227287777474,
  673507145160784609734,
  673507136227254231234,
  823350357944053268934,
  823350340081352458434,
  823350357806647869894,
  823350340081318912194,
  823350349150107730374,
  823350340079205499074,
  823350349012702331334,
  823350340079171952834,
  823350357944053268934,
  823350340081352458434,
  823350349150107730374,
  823350340079205499074,
  823350357944053268934,
  823350340081352458434,
  823350349150107730374,
  823350340079205499074,
  673507154092135547334,
  673507136229434736834,
  673507145298190008774,
  673507136227287777474,
  823350357944053268934,
  823350340081352458434,
  823350349150107730374,
  823350340079205499074,
  821045077884792996294,
  821045060022092185794,
  821045069090847457734,
  821045060019945226434,
  673507154092135547334,
  673507136229434736834,
  673507154092102001094,
  673507136229434728644,
  673507145298190008774,
  673507136227287777474,
  673507145298156462534,
  673507136227287769284,
  675812434151395819974,
  675812416288695009474,
  675812434151362273734,
  675812416288695001284,
  675812425357450281414,
  675812416286548050114,
  675812425357416735174,
  675812416286548041924,
  821045077884792996294,
  821045060022092185794,
  821045077884759450054,
  821045060022092177604,
  821045069090847457734,
  821045060019945226434,
  821045069090813911494,
  821045060019945218244,
  821045077884792996294,
  821045060022092185794,
  821045077747387597254,
  821045060022058639554,
  821045069090847457734,
  821045060019945226434,
  821045068953442058694,
  821045060019911680194,
  821045077884792996294,
  821045060022092185794,
  821045077747387597254,
  821045060022058639554,
  821045069090847457734,
  821045060019945226434,
  821045068953442058694,
  821045060019911680194,
  823350357944053268934,
  823350340081352458434,
  823350357806647869894,
  823350340081318912194,
  823350349150107730374,
  823350340079205499074,
  823350349012702331334,
  823350340079171952834,
  673507154092135547334,
  673507136229434736834,
  673507145298190008774,
  673507136227287777474,
  675812434151395819974,
  675812416288695009474,
  675812425357450281414,
  675812416286548050114,
  821045077884792996294,
  821045060022092185794,
  821045069090847457734,
  821045060019945226434,
  821045077884792996294,
  821045060022092185794,
  821045069090847457734,
  821045060019945226434,
  821045077884792996294,
  821045060022092185794,
  821045069090847457734,
  821045060019945226434,
  823350357944053268934,
  823350340081352458434,
  823350349150107730374,
  823350340079205499074,
  821045077884792996294,
  821045060022092185794,
  821045077882646036934,
  821045060022091661634,
  673507154092135547334,
  673507136229434736834,
  673507154089988587974,
  673507136229434212674,
  823350357944053268934,
  823350340081352458434,
  823350357941906309574,
  823350340081351934274,
  675812434151395819974,
  675812416288695009474,
  675812434149248860614,
  675812416288694485314,
  823350357944053268934,
  823350340081352458434,
  823350357806647869894,
  823350340081318912194,
  823350357941906309574,
  823350340081351934274,
  823350357804500910534,
  823350340081318388034,
  823350357944053268934,
  823350340081352458434,
  823350357806647869894,
  823350340081318912194,
  823350357941906309574,
  823350340081351934274,
  823350357804500910534,
  823350340081318388034,
  675812434151395819974,
  675812416288695009474,
  675812434013990420934,
  675812416288661463234,
  675812434149248860614,
  675812416288694485314,
  675812434011843461574,
  675812416288660939074,
  823350357944053268934,
  823350340081352458434,
  823350357941906309574,
  823350340081351934274,
  823350357944053268934,
  823350340081352458434,
  823350357941906309574,
  823350340081351934274,
  675812434151395819974,
  675812416288695009474,
  675812434149248860614,
  675812416288694485314,
  821045077884792996294,
  821045060022092185794,
  821045077882646036934,
  821045060022091661634,
  673507154092135547334,
  673507136229434736834,
  673507154089988587974,
  673507136229434212674,
  823350357944053268934,
  823350340081352458434,
  823350357941906309574,
  823350340081351934274,
  821045077884792996294,
  821045060022092185794,
  673507154092135547334,
  673507136229434736834,
  823350357944053268934,
  823350340081352458434,
  675812434151395819974,
  675812416288695009474,
  821045077884792996294,
  821045060022092185794,
  823350357944053268934,
  823350340081352458434,
  823350357806647869894,
  823350340081318912194,
  823350357944053268934,
  823350340081352458434,
  823350357806647869894,
  823350340081318912194,
  675812434151395819974,
  675812416288695009474,
  675812434013990420934,
  675812416288661463234,
  821045077884792996294,
  821045060022092185794,
  821045077747387597254,
  821045060022058639554,
  673507154092135547334,
  673507136229434736834,
  673507153954730148294,
  673507136229401190594,
  823350357944053268934,
  823350340081352458434,
  823350357806647869894,
  823350340081318912194,
  823350357944053268934,
  823350340081352458434,
  823350357944053268934,
  823350340081352458434,
  675812434151395819974,
  675812416288695009474,
  821045077884792996294,
  821045060022092185794,
  673507154092135547334,
  673507136229434736834,
  823350357944053268934,
  823350340081352458434,
  821045077884792996294,
  821045060022092185794,
  673507154092135547334,
  673507136229434736834,
  823350357944053268934,
  823350340081352458434,
  821045077884792996294,
  821045060022092185794,
  821045060292608000454,
  821045060017797218754,
  821045077884792996294,
  821045060022092185794,
  821045077747387597254,
  821045060022058639554,
  821045060292608000454,
  821045060017797218754]
def ccdq_t4_aaabaaab_flip_cert_5 : List Nat := [821045060155202601414,
  821045060017763672514,
  673507154092135547334,
  673507136229434736834,
  673507153954730148294,
  673507136229401190594,
  673507136499950551494,
  673507136225139769794,
  673507136362545152454,
  673507136225106223554,
  823350357944053268934,
  823350340081352458434,
  823350357806647869894,
  823350340081318912194,
  823350340351868273094,
  823350340077057491394,
  823350340214462874054,
  823350340077023945154,
  821045077884792996294,
  821045060022092185794,
  821045060292608000454,
  821045060017797218754,
  673507154092135547334,
  673507136229434736834,
  673507136499950551494,
  673507136225139769794,
  823350357944053268934,
  823350340081352458434,
  823350340351868273094,
  823350340077057491394,
  11531489114247659974,
  11531471251546849474,
  11531489112100700614,
  11531471251546325314,
  11531489114247659974,
  11531471251546849474,
  11531489114247659974,
  11531471251546849474,
  11531489112100700614,
  11531471251546325314,
  11531489114247659974,
  11531471251546849474,
  11531489114247659974,
  11531471251546849474,
  11531489114214113734,
  11531471251546841284,
  11531489112100700614,
  11531471251546325314,
  11531489112067154374,
  11531471251546317124,
  11531489114247659974,
  11531471251546849474,
  11531489114214113734,
  11531471251546841284,
  11531489114247659974,
  11531471251546849474,
  11531489112100700614,
  11531471251546325314,
  11531489114247659974,
  11531471251546849474,
  11531489114247659974,
  11531471251546849474,
  11531488839369769414,
  11531471251479740614,
  11531489112100700614,
  11531471251546325314,
  11531488837222810054,
  11531471251479216454,
  11531489114247659974,
  11531471251546849474,
  11531488839369769414,
  11531471251479740614,
  11531489114247659974,
  11531471251546849474,
  11531488976842260934,
  11531471251513303234,
  11531489112100700614,
  11531471251546325314,
  11531488974695301574,
  11531471251512779074,
  11531489114247659974,
  11531471251546849474,
  11531488976842260934,
  11531471251513303234,
  164403654764528070,
  164385792063717570,
  164403652617568710,
  164385792063193410,
  164403654764528070,
  164385792063717570,
  164403517359129030,
  164385792030171330,
  164403652617568710,
  164385792063193410,
  164403515212169670,
  164385792029647170,
  164403654764528070,
  164385792063717570,
  164403654764528070,
  164385792063717570,
  164403654764528070,
  164385792063717570,
  164403654764528070,
  164385792063717570,
  164403517359129030,
  164385792030171330,
  164403654764528070,
  164385792063717570,
  164403517359129030,
  164385792030171330,
  164403654764528070,
  164385792063717570,
  164403652617568710,
  164385792063193410,
  164403654764528070,
  164385792063717570,
  164403654764528070,
  164385792063717570,
  164403654764528070,
  164385792063717570,
  164403654764528070,
  164385792063717570,
  164403652617568710,
  164385792063193410,
  164403654764528070,
  164385792063717570,
  164403652617568710,
  164385792063193410,
  164403654764528070,
  164385792063717570,
  164403652617568710,
  164385792063193410,
  164403654764528070,
  164385792063717570,
  164403654764528070,
  164385792063717570,
  164403654764528070,
  164385792063717570,
  164403654764528070,
  164385792063717570,
  164403654764528070,
  164385792063717570,
  164403654764528070,
  164385792063717570,
  164403654764528070,
  164385792063717570,
  164403654764528070,
  164385792063717570,
  164403654730981830,
  164385792063709380,
  164403652617568710,
  164385792063193410,
  164403652584022470,
  164385792063185220,
  164403654764528070,
  164385792063717570,
  164403654730981830,
  164385792063709380,
  164403654764528070,
  164385792063717570,
  164403654730981830,
  164385792063709380,
  164403654764528070,
  164385792063717570,
  164403654764528070,
  164385792063717570,
  164403654764528070,
  164385792063717570,
  164403654764528070,
  164385792063717570,
  164403517359129030,
  164385792030171330,
  164403654764528070,
  164385792063717570,
  164403517359129030,
  164385792030171330,
  164403654764528070,
  164385792063717570,
  164403654764528070,
  164385792063717570,
  164403654764528070,
  164385792063717570,
  164403654764528070,
  164385792063717570,
  164403654764528070,
  164385792063717570,
  164403654764528070,
  164385792063717570,
  164403654764528070,
  164385792063717570,
  164403654764528070,
  164385792063717570,
  164403654764528070,
  164385792063717570,
  164403654764528070,
  164385792063717570,
  164403654730981830,
  164385792063709380,
  164403654764528070,
  164385792063717570,
  164403654764528070,
  164385792063717570,
  164403654764528070,
  164385792063717570,
  164403654764528070,
  164385792063717570,
  164403517359129030,
  164385792030171330,
  164403654764528070,
  164385792063717570,
  164403517359129030,
  164385792030171330,
  164403654764528070,
  164385792063717570,
  164394860818989510,
  164385789916758210,
  164403654764528070,
  164385792063717570,
  164394860818989510,
  164385789916758210,
  164403654764528070,
  164385792063717570,
  164403517359129030,
  164385792030171330,
  164394860818989510,
  164385789916758210,
  164394723413590470,
  164385789883211970,
  164403654764528070,
  164385792063717570,
  164403654764528070,
  164385792063717570,
  164403654764528070,
  164385792063717570,
  164403654764528070,
  164385792063717570,
  164394860818989510,
  164385789916758210,
  164403654764528070,
  164385792063717570,
  164394860818989510,
  164385789916758210,
  164403654764528070,
  164385792063717570,
  164403654764528070,
  164385792063717570,
  164403654764528070,
  164385792063717570,
  164403654764528070,
  164385792063717570,
  164403654764528070,
  164385792063717570,
  164403654764528070,
  164385792063717570,
  164403654764528070,
  164385792063717570,
  164394860818989510,
  164385789916758210,
  164403654764528070,
  164385792063717570,
  164394860818989510,
  164385789916758210,
  164403654764528070,
  164385792063717570,
  164394860818989510,
  164385789916758210,
  164403654764528070,
  164385792063717570,
  164394860818989510,
  164385789916758210,
  164403654764528070,
  164385792063717570,
  164403654730981830,
  164385792063709380,
  164403654764528070,
  164385792063717570,
  164403654730981830,
  164385792063709380,
  164394860818989510,
  164385789916758210,
  164394860785443270,
  164385789916750020,
  164403654764528070,
  164385792063717570,
  164403654764528070,
  164385792063717570,
  164403654764528070,
  164385792063717570,
  164403654764528070,
  164385792063717570,
  164403517359129030,
  164385792030171330,
  164403654764528070,
  164385792063717570,
  164403517359129030,
  164385792030171330,
  164403654764528070,
  164385792063717570,
  164403654764528070,
  164385792063717570,
  164403654764528070,
  164385792063717570,
  164403654764528070,
  164385792063717570,
  164403654764528070,
  164385792063717570,
  164403654764528070,
  164385792063717570,
  164403654764528070,
  164385792063717570,
  164403654764528070,
  164385792063717570,
  164403654764528070,
  164385792063717570,
  164403654764528070,
  164385792063717570,
  164403654730981830,
  164385792063709380,
  664280967305513664966,
  664280949442812854466,
  664280967305480118726,
  664280949442812846276,
  664280967303366705606,
  664280949442812330306,
  664280967303333159366,
  664280949442812322116,
  811818891098171113926,
  811818873235470303426,
  811818890960765714886,
  811818873235436757186,
  811818891096024154566,
  811818873235469779266,
  811818890958618755526,
  811818873235436233026,
  664280967305513664966,
  664280949442812854466,
  664280967303366705606,
  664280949442812330306,
  811818891098171113926,
  811818873235470303426,
  811818891096024154566,
  811818873235469779266,
  664280967305513664966,
  664280949442812854466,
  664280967305480118726,
  664280949442812846276,
  811818891098171113926,
  811818873235470303426,
  811818890960765714886,
  811818873235436757186,
  811818891098171113926,
  811818873235470303426,
  811818890960765714886,
  811818873235436757186,
  664280967305513664966,
  664280949442812854466,
  811818891098171113926,
  811818873235470303426,
  811818891098171113926,
  811818873235470303426,
  811818891098171113926,
  811818873235470303426,
  811818890960765714886,
  811818873235436757186,
  811818873505986118086,
  811818873231175336386,
  811818873368580719046,
  811818873231141790146,
  811818891098171113926,
  811818873235470303426,
  811818873505986118086,
  811818873231175336386,
  823350357944053268934,
  823350340081352458434,
  823350357941906309574,
  823350340081351934274,
  823350357944053268934,
  823350340081352458434,
  823350357944053268934,
  823350340081352458434,
  823350357941906309574,
  823350340081351934274,
  823350357944053268934,
  823350340081352458434,
  823350357944053268934,
  823350340081352458434,
  823350357944019722694,
  823350340081352450244,
  823350357941906309574,
  823350340081351934274,
  823350357941872763334,
  823350340081351926084,
  675812434151395819974,
  675812416288695009474,
  675812434151362273734,
  675812416288695001284,
  675812434149248860614,
  675812416288694485314,
  675812434149215314374,
  675812416288694477124]
def ccdq_t4_aaabaaab_flip_cert_6 : List Nat := [823350357944053268934,
  823350340081352458434,
  823350357944019722694,
  823350340081352450244,
  675812434151395819974,
  675812416288695009474,
  675812434151362273734,
  675812416288695001284,
  823350357944053268934,
  823350340081352458434,
  823350357941906309574,
  823350340081351934274,
  823350357944053268934,
  823350340081352458434,
  823350357944053268934,
  823350340081352458434,
  823350357669175378374,
  823350340081285349574,
  823350357941906309574,
  823350340081351934274,
  823350357667028419014,
  823350340081284825414,
  675812434151395819974,
  675812416288695009474,
  675812433876517929414,
  675812416288627900614,
  675812434149248860614,
  675812416288694485314,
  675812433874370970054,
  675812416288627376454,
  823350357944053268934,
  823350340081352458434,
  823350357669175378374,
  823350340081285349574,
  675812434151395819974,
  675812416288695009474,
  675812433876517929414,
  675812416288627900614,
  823350357944053268934,
  823350340081352458434,
  823350357806647869894,
  823350340081318912194,
  823350357941906309574,
  823350340081351934274,
  823350357804500910534,
  823350340081318388034,
  675812434151395819974,
  675812416288695009474,
  675812434013990420934,
  675812416288661463234,
  675812434149248860614,
  675812416288694485314,
  675812434011843461574,
  675812416288660939074,
  823350357944053268934,
  823350340081352458434,
  823350357806647869894,
  823350340081318912194,
  675812434151395819974,
  675812416288695009474,
  675812434013990420934,
  675812416288661463234,
  675812434151395819974,
  675812416288695009474,
  675812434149248860614,
  675812416288694485314,
  675812434151395819974,
  675812416288695009474,
  675812434013990420934,
  675812416288661463234,
  675812434149248860614,
  675812416288694485314,
  675812434011843461574,
  675812416288660939074,
  823350357944053268934,
  823350340081352458434,
  821045077884792996294,
  821045060022092185794,
  675812434151395819974,
  675812416288695009474,
  823350357944053268934,
  823350340081352458434,
  673507154092135547334,
  673507136229434736834,
  675812434151395819974,
  675812416288695009474,
  675812434013990420934,
  675812416288661463234,
  823350357944053268934,
  823350340081352458434,
  823350357806647869894,
  823350340081318912194,
  673507154092135547334,
  673507136229434736834,
  673507153954730148294,
  673507136229401190594,
  675812434151395819974,
  675812416288695009474,
  675812434149248860614,
  675812416288694485314,
  823350357944053268934,
  823350340081352458434,
  821045077884792996294,
  821045060022092185794,
  675812434151395819974,
  675812416288695009474,
  823350357944053268934,
  823350340081352458434,
  673507154092135547334,
  673507136229434736834,
  675812434151395819974,
  675812416288695009474,
  675812434149248860614,
  675812416288694485314,
  675812434151395819974,
  675812416288695009474,
  675812434149248860614,
  675812416288694485314,
  823350357944053268934,
  823350340081352458434,
  823350357941906309574,
  823350340081351934274,
  823350357944053268934,
  823350340081352458434,
  823350357941906309574,
  823350340081351934274,
  823350357944053268934,
  823350340081352458434,
  821045077884792996294,
  821045060022092185794,
  675812434151395819974,
  675812416288695009474,
  823350357944053268934,
  823350340081352458434,
  673507154092135547334,
  673507136229434736834,
  675812434151395819974,
  675812416288695009474,
  823350357944053268934,
  823350340081352458434,
  673507154092135547334,
  673507136229434736834,
  823350357944053268934,
  823350340081352458434,
  823350357944053268934,
  823350340081352458434,
  821045077884792996294,
  821045060022092185794,
  823350357944053268934,
  823350340081352458434,
  823350357944019722694,
  823350340081352450244,
  823350357941906309574,
  823350340081351934274,
  823350357941872763334,
  823350340081351926084,
  823350357944053268934,
  823350340081352458434,
  823350357944019722694,
  823350340081352450244,
  823350357941906309574,
  823350340081351934274,
  823350357941872763334,
  823350340081351926084,
  823350357944053268934,
  823350340081352458434,
  823350357944019722694,
  823350340081352450244,
  823350357944053268934,
  823350340081352458434,
  823350357944019722694,
  823350340081352450244,
  821045077884792996294,
  821045060022092185794,
  821045077884759450054,
  821045060022092177604,
  675812434151395819974,
  675812416288695009474,
  821045077884792996294,
  821045060022092185794,
  673507154092135547334,
  673507136229434736834,
  673507154092135547334,
  673507136229434736834,
  673507154092102001094,
  673507136229434728644,
  675812434151395819974,
  675812416288695009474,
  675812434151362273734,
  675812416288695001284,
  675812434151395819974,
  675812416288695009474,
  821045077884792996294,
  821045060022092185794,
  673507154092135547334,
  673507136229434736834,
  675812434151395819974,
  675812416288695009474,
  675812434151362273734,
  675812416288695001284,
  675812434149248860614,
  675812416288694485314,
  675812434149215314374,
  675812416288694477124,
  823350357944053268934,
  823350340081352458434,
  823350357944019722694,
  823350340081352450244,
  823350357941906309574,
  823350340081351934274,
  823350357941872763334,
  823350340081351926084,
  821045077884792996294,
  821045060022092185794,
  821045077747387597254,
  821045060022058639554,
  821045077882646036934,
  821045060022091661634,
  821045077745240637894,
  821045060022058115394,
  675812434151395819974,
  675812416288695009474,
  675812434151362273734,
  675812416288695001284,
  823350357944053268934,
  823350340081352458434,
  823350357944019722694,
  823350340081352450244,
  823350357944053268934,
  823350340081352458434,
  823350357944019722694,
  823350340081352450244,
  821045077884792996294,
  821045060022092185794,
  821045077884759450054,
  821045060022092177604,
  821045077884792996294,
  821045060022092185794,
  821045077747387597254,
  821045060022058639554,
  821045077884792996294,
  821045060022092185794,
  821045077747387597254,
  821045060022058639554,
  823350357944053268934,
  823350340081352458434,
  823350357806647869894,
  823350340081318912194,
  821045077884792996294,
  821045060022092185794,
  821045077882646036934,
  821045060022091661634,
  675812434151395819974,
  675812416288695009474,
  821045077884792996294,
  821045060022092185794,
  673507154092135547334,
  673507136229434736834,
  673507154092135547334,
  673507136229434736834,
  675812434151395819974,
  675812416288695009474,
  821045077884792996294,
  821045060022092185794,
  821045077884792996294,
  821045060022092185794,
  823350357944053268934,
  823350340081352458434,
  675812434151395819974,
  675812416288695009474,
  675812433876517929414,
  675812416288627900614,
  675812434149248860614,
  675812416288694485314,
  675812433874370970054,
  675812416288627376454,
  823350357944053268934,
  823350340081352458434,
  823350357669175378374,
  823350340081285349574,
  823350357941906309574,
  823350340081351934274,
  823350357667028419014,
  823350340081284825414,
  675812434151395819974,
  675812416288695009474,
  675812433876517929414,
  675812416288627900614,
  823350357944053268934,
  823350340081352458434,
  823350357669175378374,
  823350340081285349574,
  823350357944053268934,
  823350340081352458434,
  823350357669175378374,
  823350340081285349574,
  821045077884792996294,
  821045060022092185794,
  821045077609915105734,
  821045060022025076934,
  675812434151395819974,
  675812416288695009474,
  675812434013990420934,
  675812416288661463234,
  675812434149248860614,
  675812416288694485314,
  675812434011843461574,
  675812416288660939074,
  823350357944053268934,
  823350340081352458434,
  823350357806647869894,
  823350340081318912194,
  823350357941906309574,
  823350340081351934274,
  823350357804500910534,
  823350340081318388034,
  675812434151395819974,
  675812416288695009474,
  675812434013990420934,
  675812416288661463234,
  823350357944053268934,
  823350340081352458434,
  823350357806647869894,
  823350340081318912194,
  823350357944053268934,
  823350340081352458434,
  823350357806647869894,
  823350340081318912194,
  821045077884792996294,
  821045060022092185794,
  821045077747387597254,
  821045060022058639554,
  823350357944053268934,
  823350340081352458434,
  821045077884792996294,
  821045060022092185794,
  823350357944053268934,
  823350340081352458434,
  673507154092135547334,
  673507136229434736834,
  823350357944053268934,
  823350340081352458434,
  823350357806647869894,
  823350340081318912194,
  673507154092135547334,
  673507136229434736834,
  673507153954730148294,
  673507136229401190594,
  823350357944053268934,
  823350340081352458434,
  821045077884792996294,
  821045060022092185794,
  823350357944053268934,
  823350340081352458434,
  673507154092135547334,
  673507136229434736834,
  823350357944053268934,
  823350340081352458434,
  821045077884792996294,
  821045060022092185794,
  823350357944053268934,
  823350340081352458434,
  673507154092135547334,
  673507136229434736834,
  823350357944053268934,
  823350340081352458434,
  673507154092135547334,
  673507136229434736834,
  821045077884792996294,
  821045060022092185794,
  821045077884792996294,
  821045060022092185794,
  821045077884759450054,
  821045060022092177604,
  675812434151395819974,
  675812416288695009474,
  821045077884792996294,
  821045060022092185794,
  673507154092135547334,
  673507136229434736834,
  673507154092135547334,
  673507136229434736834,
  673507154092102001094,
  673507136229434728644,
  675812434151395819974,
  675812416288695009474,
  675812434151362273734,
  675812416288695001284,
  675812434151395819974,
  675812416288695009474,
  821045077884792996294,
  821045060022092185794,
  673507154092135547334,
  673507136229434736834,
  823350357944053268934,
  823350340081352458434,
  823350357944019722694,
  823350340081352450244,
  821045077884792996294,
  821045060022092185794]
def ccdq_t4_aaabaaab_flip_cert_7 : List Nat := [821045077884759450054,
  821045060022092177604,
  821045077884792996294,
  821045060022092185794,
  821045077747387597254,
  821045060022058639554,
  823350357944053268934,
  823350340081352458434,
  823350357806647869894,
  823350340081318912194,
  675812434151395819974,
  675812416288695009474,
  821045077884792996294,
  821045060022092185794,
  673507154092135547334,
  673507136229434736834,
  673507154092135547334,
  673507136229434736834,
  675812434151395819974,
  675812416288695009474,
  821045077884792996294,
  821045060022092185794,
  823350357944053268934,
  823350340081352458434,
  823350357944053268934,
  823350340081352458434,
  823350357669175378374,
  823350340081285349574,
  821045077884792996294,
  821045060022092185794,
  821045077609915105734,
  821045060022025076934,
  823350357944053268934,
  823350340081352458434,
  823350357806647869894,
  823350340081318912194,
  821045077884792996294,
  821045060022092185794,
  821045077747387597254,
  821045060022058639554,
  823350357944053268934,
  823350340081352458434,
  821045077884792996294,
  821045060022092185794,
  823350357944053268934,
  823350340081352458434,
  673507154092135547334,
  673507136229434736834,
  823350357944053268934,
  823350340081352458434,
  823350357806647869894,
  823350340081318912194,
  673507154092135547334,
  673507136229434736834,
  673507153954730148294,
  673507136229401190594,
  823350357944053268934,
  823350340081352458434,
  821045077884792996294,
  821045060022092185794,
  823350357944053268934,
  823350340081352458434,
  673507154092135547334,
  673507136229434736834,
  823350357944053268934,
  823350340081352458434,
  821045077884792996294,
  821045060022092185794,
  823350357944053268934,
  823350340081352458434,
  673507154092135547334,
  673507136229434736834,
  823350357944053268934,
  823350340081352458434,
  673507154092135547334,
  673507136229434736834,
  821045077884792996294,
  821045060022092185794,
  821045077884792996294,
  821045060022092185794,
  821045077884759450054,
  821045060022092177604,
  675812434151395819974,
  675812416288695009474,
  821045077884792996294,
  821045060022092185794,
  673507154092135547334,
  673507136229434736834,
  673507154092135547334,
  673507136229434736834,
  673507154092102001094,
  673507136229434728644,
  675812434151395819974,
  675812416288695009474,
  675812434151362273734,
  675812416288695001284,
  675812434151395819974,
  675812416288695009474,
  821045077884792996294,
  821045060022092185794,
  673507154092135547334,
  673507136229434736834,
  823350357944053268934,
  823350340081352458434,
  823350357944019722694,
  823350340081352450244,
  821045077884792996294,
  821045060022092185794,
  821045077884759450054,
  821045060022092177604,
  821045077884792996294,
  821045060022092185794,
  821045077747387597254,
  821045060022058639554,
  823350357944053268934,
  823350340081352458434,
  823350357806647869894,
  823350340081318912194,
  675812434151395819974,
  675812416288695009474,
  821045077884792996294,
  821045060022092185794,
  673507154092135547334,
  673507136229434736834,
  673507154092135547334,
  673507136229434736834,
  675812434151395819974,
  675812416288695009474,
  821045077884792996294,
  821045060022092185794,
  823350357944053268934,
  823350340081352458434,
  823350357944053268934,
  823350340081352458434,
  823350357669175378374,
  823350340081285349574,
  821045077884792996294,
  821045060022092185794,
  821045077609915105734,
  821045060022025076934,
  823350357944053268934,
  823350340081352458434,
  823350357806647869894,
  823350340081318912194,
  821045077884792996294,
  821045060022092185794,
  821045077747387597254,
  821045060022058639554]

/-- Check ccdq_t4_aaabaaab_flip. C87 -/
theorem ccdq_t4_aaabaaab_flip : isZero kinds [aᵥ, bᵥ, cᵥ, dᵥ, iₒ, jₒ, kₒ, lₒ] 100000000000000
    (Prog.flip (ccdq_t4_aaabaaab) ++ (Prog.scale (-1) (Prog.outs [1, 2, 3, 0, 5, 6, 7, 4] (ccdq_t4_abbbabbb))))
    (ccdq_t4_aaabaaab_flip_cert_0 ++ (ccdq_t4_aaabaaab_flip_cert_1 ++ (ccdq_t4_aaabaaab_flip_cert_2 ++ (ccdq_t4_aaabaaab_flip_cert_3 ++ (ccdq_t4_aaabaaab_flip_cert_4 ++ (ccdq_t4_aaabaaab_flip_cert_5 ++ (ccdq_t4_aaabaaab_flip_cert_6 ++ (ccdq_t4_aaabaaab_flip_cert_7)))))))) = true := by decide +kernel

end Verif.Cert
