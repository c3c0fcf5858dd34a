import Verif.Ein.Ops2
import Verif.Gen.SiCcdqT4_1

/-! Written by `/verif/tools/gen.py`. Checks of einsum programs. -/

set_option maxRecDepth 100000

namespace Verif.Cert

open Verif.Ein Verif.Ein.N


open Verif.Gen

def ccdq_t4_aaabaaab_anti0_cert_0 : List Nat := [2283003892736064,
  2283003892736064,
  2283003892736064,
  2283003892736064,
  2283003892736064,
  2283003892736064,
  2283003892727874,
  2283003892727874,
  162160790664388672,
  162160790664388672,
  162160790663864512,
  162160790663864512,
  162160790664388672,
  162160790664388672,
  162160790664388672,
  162160790664388672,
  9226217990700933184,
  9226217990700933184,
  9226217990667386944,
  9226217990667386944,
  11531498049961205824,
  11531498049961205824,
  11531498049927659584,
  11531498049927659584,
  9226217990700933184,
  9226217990700933184,
  11531498049961205824,
  11531498049961205824,
  9226217990700933184,
  9226217990700933184,
  9226217990700933184,
  9226217990700933184,
  9226217990633824324,
  9226217990633824324,
  164412590478073920,
  164412590478073920,
  164412590477549760,
  164412590477549760,
  164412590478073920,
  164412590478073920,
  164412590477549760,
  164412590477549760,
  164412590478073920,
  164412590478073920,
  164412590477549760,
  164412590477549760,
  164412590478073920,
  164412590478073920,
  164412590478065730,
  164412590478065730,
  164412590477549760,
  164412590477549760,
  164412590477541570,
  164412590477541570,
  164412590478073920,
  164412590478073920,
  164412590478065730,
  164412590478065730,
  164412590477549760,
  164412590477549760,
  164412590477541570,
  164412590477541570,
  164412590478073920,
  164412590478073920,
  164412590478073920,
  164412590478073920,
  164412590478073920,
  164412590478073920,
  164412590478073920,
  164412590478073920,
  164412590478073920,
  164412590478073920,
  164412590478073920,
  164412590478073920,
  164412590478073920,
  164412590478073920,
  164412590478065730,
  164412590478065730,
  164412590478073920,
  164412590478073920,
  164412590478065730,
  164412590478065730,
  164412590478073920,
  164412590478073920,
  164412590478065730,
  164412590478065730,
  811818900033884659776,
  811818900033884659776,
  811818900031737700416,
  811818900031737700416,
  811818900033884659776,
  811818900033884659776,
  811818900033884135616,
  811818900033884135616,
  664280976241227210816,
  664280976241227210816,
  664280976241226686656,
  664280976241226686656,
  811818900033884659776,
  811818900033884659776,
  811818900033884659776,
  811818900033884659776,
  664280976241227210816,
  664280976241227210816,
  823350366879766814784,
  823350366879766814784,
  675812443087109365824,
  675812443087109365824,
  823350366879766814784,
  823350366879766814784,
  823350366879766814784,
  823350366879766814784,
  821045086820506542144,
  821045086820506542144,
  673507163027849093184,
  673507163027849093184,
  823350366879766814784,
  823350366879766814784,
  823350366879766806594,
  823350366879766806594,
  821045086820506542144,
  821045086820506542144,
  821045086820506533954,
  821045086820506533954,
  673507163027849093184,
  673507163027849093184,
  673507163027849084994,
  673507163027849084994,
  821045086820506542144,
  821045086820506542144,
  821045086820472995904,
  821045086820472995904,
  823350366879766814784,
  823350366879766814784,
  823350366879733268544,
  823350366879733268544,
  673507163027849093184,
  673507163027849093184,
  673507163027815546944,
  673507163027815546944,
  675812443087109365824,
  675812443087109365824,
  675812443087075819584,
  675812443087075819584,
  821045086820506542144,
  821045086820506542144,
  823350366879766814784,
  823350366879766814784,
  673507163027849093184,
  673507163027849093184,
  675812443087109365824,
  675812443087109365824,
  821045086820506542144,
  821045086820506542144,
  821045086820506542144,
  821045086820506542144,
  821045086820439433284,
  821045086820439433284,
  821045086820506542144,
  821045086820506542144,
  821045086820506017984,
  821045086820506017984,
  673507163027849093184,
  673507163027849093184,
  673507163027848569024,
  673507163027848569024,
  675812443087109365824,
  675812443087109365824,
  675812443087108841664,
  675812443087108841664,
  675812443087109365824,
  675812443087109365824,
  675812443087108841664,
  675812443087108841664,
  823350366879766814784,
  823350366879766814784,
  823350366879766290624,
  823350366879766290624,
  823350366879766814784,
  823350366879766814784,
  823350366879766290624,
  823350366879766290624,
  673507163027849093184,
  673507163027849093184,
  673507163027848569024,
  673507163027848569024,
  823350366879766814784,
  823350366879766814784,
  823350366879766290624,
  823350366879766290624,
  823350366879766814784,
  823350366879766814784,
  823350366879766806594,
  823350366879766806594,
  823350366879766290624,
  823350366879766290624,
  823350366879766282434,
  823350366879766282434,
  823350366879766814784,
  823350366879766814784,
  823350366879766806594,
  823350366879766806594,
  823350366879766290624,
  823350366879766290624,
  823350366879766282434,
  823350366879766282434,
  673507163027849093184,
  673507163027849093184,
  673507163027849084994,
  673507163027849084994,
  673507163027848569024,
  673507163027848569024,
  673507163027848560834,
  673507163027848560834,
  823350366879766814784,
  823350366879766814784,
  823350366879766806594,
  823350366879766806594,
  823350366879766290624,
  823350366879766290624,
  823350366879766282434,
  823350366879766282434,
  673507163027849093184,
  673507163027849093184,
  673507163027815546944,
  673507163027815546944,
  673507163027848569024,
  673507163027848569024,
  673507163027815022784,
  673507163027815022784,
  675812443087109365824,
  675812443087109365824,
  675812443087075819584,
  675812443087075819584,
  675812443087108841664,
  675812443087108841664,
  675812443087075295424,
  675812443087075295424,
  821045086820506542144,
  821045086820506542144,
  821045086820472995904,
  821045086820472995904,
  821045086820506017984,
  821045086820506017984,
  821045086820472471744,
  821045086820472471744,
  673507163027849093184,
  673507163027849093184,
  673507163027848569024,
  673507163027848569024,
  675812443087109365824,
  675812443087109365824,
  675812443087108841664,
  675812443087108841664,
  821045086820506542144,
  821045086820506542144,
  821045086820506017984,
  821045086820506017984,
  821045086820506542144,
  821045086820506542144,
  821045086820506017984,
  821045086820506017984,
  821045086820506542144,
  821045086820506542144,
  821045086820506017984,
  821045086820506017984,
  823350366879766814784,
  823350366879766814784,
  823350366879766290624,
  823350366879766290624,
  821045086820506542144,
  821045086820506542144,
  821045086820439433284,
  821045086820439433284,
  821045086820506017984,
  821045086820506017984,
  821045086820438909124,
  821045086820438909124,
  821045086820506542144,
  821045086820506542144,
  821045086820439433284,
  821045086820439433284,
  821045086820506017984,
  821045086820506017984,
  821045086820438909124,
  821045086820438909124,
  823350366879766814784,
  823350366879766814784,
  823350366879699705924,
  823350366879699705924,
  823350366879766290624,
  823350366879766290624,
  823350366879699181764,
  823350366879699181764,
  821045086820506542144,
  821045086820506542144,
  673507163027849093184,
  673507163027849093184,
  675812443087109365824,
  675812443087109365824,
  821045086820506542144,
  821045086820506542144,
  823350366879766814784,
  823350366879766814784,
  821045086820506542144,
  821045086820506542144,
  675812443087109365824,
  675812443087109365824,
  823350366879766814784,
  823350366879766814784,
  823350366879766814784,
  823350366879766814784,
  673507163027849093184,
  673507163027849093184,
  823350366879766814784,
  823350366879766814784,
  823350366879766814784,
  823350366879766814784,
  823350366879766814784,
  823350366879766814784,
  673507163027849093184,
  673507163027849093184,
  823350366879766814784,
  823350366879766814784,
  821045086820506542144,
  821045086820506542144,
  823350366879766814784,
  823350366879766814784,
  823350366879766806594,
  823350366879766806594,
  823350366879766814784,
  823350366879766814784,
  823350366879766806594,
  823350366879766806594,
  673507163027849093184,
  673507163027849093184,
  673507163027849084994,
  673507163027849084994,
  823350366879766814784,
  823350366879766814784,
  823350366879766806594,
  823350366879766806594,
  821045086820506542144,
  821045086820506542144,
  821045086820506533954,
  821045086820506533954,
  673507163027849093184,
  673507163027849093184,
  673507163027815546944,
  673507163027815546944,
  675812443087109365824,
  675812443087109365824,
  675812443087075819584,
  675812443087075819584,
  821045086820506542144,
  821045086820506542144,
  821045086820472995904,
  821045086820472995904,
  821045086820506542144,
  821045086820506542144,
  821045086820472995904,
  821045086820472995904,
  821045086820506542144,
  821045086820506542144,
  821045086820472995904,
  821045086820472995904,
  823350366879766814784,
  823350366879766814784,
  823350366879733268544,
  823350366879733268544,
  673507163027849093184,
  673507163027849093184,
  675812443087109365824,
  675812443087109365824,
  821045086820506542144,
  821045086820506542144,
  821045086820506542144,
  821045086820506542144,
  821045086820506542144,
  821045086820506542144,
  823350366879766814784,
  823350366879766814784,
  821045086820506542144,
  821045086820506542144,
  821045086820506542144,
  821045086820506542144,
  823350366879766814784,
  823350366879766814784,
  821045086820506542144,
  821045086820506542144,
  821045086820439433284,
  821045086820439433284,
  821045086820506542144,
  821045086820506542144,
  821045086820439433284,
  821045086820439433284,
  823350366879766814784,
  823350366879766814784,
  823350366879699705924,
  823350366879699705924]
def ccdq_t4_aaabaaab_anti0_cert_1 : List Nat := [821045086820506542144,
  821045086820506542144,
  821045086818359582784,
  821045086818359582784,
  823350366879766814784,
  823350366879766814784,
  823350366877619855424,
  823350366877619855424,
  823350366879766814784,
  823350366879766814784,
  823350366877619855424,
  823350366877619855424,
  675812443087109365824,
  675812443087109365824,
  675812443084962406464,
  675812443084962406464,
  823350366879766814784,
  823350366879766814784,
  823350366879766806594,
  823350366879766806594,
  823350366877619855424,
  823350366877619855424,
  823350366877619847234,
  823350366877619847234,
  823350366879766814784,
  823350366879766814784,
  823350366879766806594,
  823350366879766806594,
  823350366877619855424,
  823350366877619855424,
  823350366877619847234,
  823350366877619847234,
  675812443087109365824,
  675812443087109365824,
  675812443087109357634,
  675812443087109357634,
  675812443084962406464,
  675812443084962406464,
  675812443084962398274,
  675812443084962398274,
  821045086820506542144,
  821045086820506542144,
  821045086820506017984,
  821045086820506017984,
  673507163027849093184,
  673507163027849093184,
  673507163027848569024,
  673507163027848569024,
  823350366879766814784,
  823350366879766814784,
  823350366879766290624,
  823350366879766290624,
  675812443087109365824,
  675812443087109365824,
  675812443087108841664,
  675812443087108841664,
  823350366879766814784,
  823350366879766814784,
  823350366879766290624,
  823350366879766290624,
  823350366879766814784,
  823350366879766814784,
  823350366879766290624,
  823350366879766290624,
  675812443087109365824,
  675812443087109365824,
  675812443087108841664,
  675812443087108841664,
  821045086820506542144,
  821045086820506542144,
  821045086820506017984,
  821045086820506017984,
  673507163027849093184,
  673507163027849093184,
  673507163027848569024,
  673507163027848569024,
  823350366879766814784,
  823350366879766814784,
  823350366879766290624,
  823350366879766290624,
  821045086820506542144,
  821045086820506542144,
  821045086820506533954,
  821045086820506533954,
  821045086820506017984,
  821045086820506017984,
  821045086820506009794,
  821045086820506009794,
  673507163027849093184,
  673507163027849093184,
  673507163027849084994,
  673507163027849084994,
  673507163027848569024,
  673507163027848569024,
  673507163027848560834,
  673507163027848560834,
  823350366879766814784,
  823350366879766814784,
  823350366879766806594,
  823350366879766806594,
  823350366879766290624,
  823350366879766290624,
  823350366879766282434,
  823350366879766282434,
  821045086820506542144,
  821045086820506542144,
  821045086820506542144,
  821045086820506542144,
  673507163027849093184,
  673507163027849093184,
  823350366879766814784,
  823350366879766814784,
  675812443087109365824,
  675812443087109365824,
  823350366879766814784,
  823350366879766814784,
  823350366879766814784,
  823350366879766814784,
  675812443087109365824,
  675812443087109365824,
  823350366879766814784,
  823350366879766814784,
  823350366879766814784,
  823350366879766814784,
  675812443087109365824,
  675812443087109365824,
  821045086820506542144,
  821045086820506542144,
  673507163027849093184,
  673507163027849093184,
  823350366879766814784,
  823350366879766814784,
  823350366879766814784,
  823350366879766814784,
  823350366879766806594,
  823350366879766806594,
  823350366879766814784,
  823350366879766814784,
  823350366879766806594,
  823350366879766806594,
  675812443087109365824,
  675812443087109365824,
  675812443087109357634,
  675812443087109357634,
  821045086820506542144,
  821045086820506542144,
  821045086820506533954,
  821045086820506533954,
  673507163027849093184,
  673507163027849093184,
  673507163027849084994,
  673507163027849084994,
  823350366879766814784,
  823350366879766814784,
  823350366879766806594,
  823350366879766806594,
  11531498049961205824,
  11531498049961205824,
  11531498049961197634,
  11531498049961197634,
  11531498047814246464,
  11531498047814246464,
  11531498047814238274,
  11531498047814238274,
  9226217990700933184,
  9226217990700933184,
  9226217990700924994,
  9226217990700924994,
  11531498049961205824,
  11531498049961205824,
  11531498049894096964,
  11531498049894096964,
  11531498047814246464,
  11531498047814246464,
  11531498047747137604,
  11531498047747137604,
  9226217990700933184,
  9226217990700933184,
  9226217990633824324,
  9226217990633824324,
  11531498049961205824,
  11531498049961205824,
  11531498049927659584,
  11531498049927659584,
  11531498047814246464,
  11531498047814246464,
  11531498047780700224,
  11531498047780700224,
  9226217990700933184,
  9226217990700933184,
  9226217990667386944,
  9226217990667386944,
  11531498049961205824,
  11531498049961205824,
  11531498047814246464,
  11531498047814246464,
  9226217990700933184,
  9226217990700933184,
  11531498049961205824,
  11531498049961205824,
  11531498047814246464,
  11531498047814246464,
  9226217990700933184,
  9226217990700933184,
  11531498049961205824,
  11531498049961205824,
  11531498047814246464,
  11531498047814246464,
  9226217990700933184,
  9226217990700933184,
  164412590478073920,
  164412590478073920,
  164412590478065730,
  164412590478065730,
  164412588331114560,
  164412588331114560,
  164412588331106370,
  164412588331106370,
  164412590478073920,
  164412590478073920,
  164412588331114560,
  164412588331114560,
  164412590478073920,
  164412590478073920,
  164412588331114560,
  164412588331114560,
  164412590478073920,
  164412590478073920,
  164412590478065730,
  164412590478065730,
  164412588331114560,
  164412588331114560,
  164412588331106370,
  164412588331106370,
  164412590478073920,
  164412590478073920,
  164412590478065730,
  164412590478065730,
  164412590477549760,
  164412590477549760,
  164412590477541570,
  164412590477541570,
  164412590478073920,
  164412590478073920,
  164412590410965060,
  164412590410965060,
  164412588331114560,
  164412588331114560,
  164412588264005700,
  164412588264005700,
  164412590478073920,
  164412590478073920,
  164412590478065730,
  164412590478065730,
  164412588331114560,
  164412588331114560,
  164412588331106370,
  164412588331106370,
  164412590478073920,
  164412590478073920,
  164412590410965060,
  164412590410965060,
  164412590477549760,
  164412590477549760,
  164412590410440900,
  164412590410440900,
  164412590478073920,
  164412590478073920,
  164412590444527680,
  164412590444527680,
  164412588331114560,
  164412588331114560,
  164412588297568320,
  164412588297568320,
  164412590478073920,
  164412590478073920,
  164412590444527680,
  164412590444527680,
  164412590477549760,
  164412590477549760,
  164412590444003520,
  164412590444003520,
  164412590478073920,
  164412590478073920,
  164412590478065730,
  164412590478065730,
  164412586183106880,
  164412586183106880,
  164412586183098690,
  164412586183098690,
  164412590478073920,
  164412590478073920,
  164412586183106880,
  164412586183106880,
  164412590478073920,
  164412590478073920,
  164412586183106880,
  164412586183106880,
  164412590478073920,
  164412590478073920,
  164412590478065730,
  164412590478065730,
  164412586183106880,
  164412586183106880,
  164412586183098690,
  164412586183098690,
  164412590478073920,
  164412590478073920,
  164412590410965060,
  164412590410965060,
  164412586183106880,
  164412586183106880,
  164412586115998020,
  164412586115998020,
  164412590478073920,
  164412590478073920,
  164412590478065730,
  164412590478065730,
  164412586183106880,
  164412586183106880,
  164412586183098690,
  164412586183098690,
  164412590478073920,
  164412590478073920,
  164412590444527680,
  164412590444527680,
  164412586183106880,
  164412586183106880,
  164412586149560640,
  164412586149560640,
  164412590478073920,
  164412590478073920,
  164412590478065730,
  164412590478065730,
  164412590477549760,
  164412590477549760,
  164412590477541570,
  164412590477541570,
  164412590478073920,
  164412590478073920,
  164412590477549760,
  164412590477549760,
  164412590478073920,
  164412590478073920,
  164412590477549760,
  164412590477549760,
  164412590478073920,
  164412590478073920,
  164412590478065730,
  164412590478065730,
  164412590478073920,
  164412590478073920,
  164412590478073920,
  164412590478073920,
  164412590478065730,
  164412590478065730,
  164412590477549760,
  164412590477549760,
  164412590477541570,
  164412590477541570,
  164412590478073920,
  164412590478073920,
  164412590478065730,
  164412590478065730,
  164412590478073920,
  164412590478073920,
  164412590478065730,
  164412590478065730,
  164412590478073920,
  164412590478073920,
  164412590410965060,
  164412590410965060,
  164412590477549760,
  164412590477549760,
  164412590410440900,
  164412590410440900,
  164412590478073920,
  164412590478073920,
  164412590478065730,
  164412590478065730,
  164412590477549760,
  164412590477549760,
  164412590477541570,
  164412590477541570,
  164412590478073920,
  164412590478073920,
  164412590410965060,
  164412590410965060,
  164412590478073920,
  164412590478073920,
  164412590410965060,
  164412590410965060,
  164412590478073920,
  164412590478073920,
  164412590444527680,
  164412590444527680,
  164412590477549760,
  164412590477549760,
  164412590444003520,
  164412590444003520]
def ccdq_t4_aaabaaab_anti0_cert_2 : List Nat := [164412590478073920,
  164412590478073920,
  164412590444527680,
  164412590444527680,
  164412590478073920,
  164412590478073920,
  164412590444527680,
  164412590444527680,
  164412590478073920,
  164412590478073920,
  164412590478065730,
  164412590478065730,
  164412590477549760,
  164412590477549760,
  164412590477541570,
  164412590477541570,
  164412590478073920,
  164412590478073920,
  164412590477549760,
  164412590477549760,
  164412590478073920,
  164412590478073920,
  164412590478065730,
  164412590478065730,
  164412590477549760,
  164412590477549760,
  164412590477541570,
  164412590477541570,
  164412590478073920,
  164412590478073920,
  164412590410965060,
  164412590410965060,
  164412590477549760,
  164412590477549760,
  164412590410440900,
  164412590410440900,
  164412590478073920,
  164412590478073920,
  164412590444527680,
  164412590444527680,
  164412590477549760,
  164412590477549760,
  164412590444003520,
  164412590444003520,
  811818900033884659776,
  811818900033884659776,
  811818900031737700416,
  811818900031737700416,
  811818900033884659776,
  811818900033884659776,
  811818900033817550916,
  811818900033817550916,
  811818900031737700416,
  811818900031737700416,
  811818900031670591556,
  811818900031670591556,
  664280976241227210816,
  664280976241227210816,
  664280976241193664576,
  664280976241193664576,
  664280976241226686656,
  664280976241226686656,
  664280976241193140416,
  664280976241193140416,
  664280976241227210816,
  664280976241227210816,
  664280976241226686656,
  664280976241226686656,
  811818900033884659776,
  811818900033884659776,
  811818900033884135616,
  811818900033884135616,
  811818900033884659776,
  811818900033884659776,
  811818900033817550916,
  811818900033817550916,
  811818900033884135616,
  811818900033884135616,
  811818900033817026756,
  811818900033817026756,
  664280976241227210816,
  664280976241227210816,
  664280976241193664576,
  664280976241193664576,
  664280976241227210816,
  664280976241227210816,
  811818900033884659776,
  811818900033884659776,
  811818900033884659776,
  811818900033884659776,
  811818900033884659776,
  811818900033884659776,
  811818900033817550916,
  811818900033817550916,
  811818900033884659776,
  811818900033884659776,
  811818900033817550916,
  811818900033817550916,
  823350366879766814784,
  823350366879766814784,
  823350366879766806594,
  823350366879766806594,
  823350366877619855424,
  823350366877619855424,
  823350366877619847234,
  823350366877619847234,
  675812443087109365824,
  675812443087109365824,
  675812443087109357634,
  675812443087109357634,
  675812443084962406464,
  675812443084962406464,
  675812443084962398274,
  675812443084962398274,
  821045086820506542144,
  821045086820506542144,
  821045086820506533954,
  821045086820506533954,
  673507163027849093184,
  673507163027849093184,
  673507163027849084994,
  673507163027849084994,
  823350366879766814784,
  823350366879766814784,
  823350366879699705924,
  823350366879699705924,
  823350366877619855424,
  823350366877619855424,
  823350366877552746564,
  823350366877552746564,
  675812443087109365824,
  675812443087109365824,
  675812443087042256964,
  675812443087042256964,
  675812443084962406464,
  675812443084962406464,
  675812443084895297604,
  675812443084895297604,
  821045086820506542144,
  821045086820506542144,
  821045086820439433284,
  821045086820439433284,
  673507163027849093184,
  673507163027849093184,
  673507163027781984324,
  673507163027781984324,
  823350366879766814784,
  823350366879766814784,
  823350366879733268544,
  823350366879733268544,
  823350366877619855424,
  823350366877619855424,
  823350366877586309184,
  823350366877586309184,
  675812443087109365824,
  675812443087109365824,
  675812443087075819584,
  675812443087075819584,
  675812443084962406464,
  675812443084962406464,
  675812443084928860224,
  675812443084928860224,
  821045086820506542144,
  821045086820506542144,
  821045086820472995904,
  821045086820472995904,
  673507163027849093184,
  673507163027849093184,
  673507163027815546944,
  673507163027815546944,
  823350366879766814784,
  823350366879766814784,
  823350366877619855424,
  823350366877619855424,
  821045086820506542144,
  821045086820506542144,
  823350366879766814784,
  823350366879766814784,
  823350366877619855424,
  823350366877619855424,
  821045086820506542144,
  821045086820506542144,
  823350366879766814784,
  823350366879766814784,
  823350366877619855424,
  823350366877619855424,
  821045086820506542144,
  821045086820506542144,
  675812443087109365824,
  675812443087109365824,
  675812443087109357634,
  675812443087109357634,
  675812443084962406464,
  675812443084962406464,
  675812443084962398274,
  675812443084962398274,
  675812443087109365824,
  675812443087109365824,
  675812443084962406464,
  675812443084962406464,
  823350366879766814784,
  823350366879766814784,
  823350366877619855424,
  823350366877619855424,
  673507163027849093184,
  673507163027849093184,
  673507163025702133824,
  673507163025702133824,
  823350366879766814784,
  823350366879766814784,
  823350366879766806594,
  823350366879766806594,
  823350366877619855424,
  823350366877619855424,
  823350366877619847234,
  823350366877619847234,
  823350366879766814784,
  823350366879766814784,
  823350366879766806594,
  823350366879766806594,
  823350366877619855424,
  823350366877619855424,
  823350366877619847234,
  823350366877619847234,
  823350366879766814784,
  823350366879766814784,
  823350366879766806594,
  823350366879766806594,
  823350366879766290624,
  823350366879766290624,
  823350366879766282434,
  823350366879766282434,
  673507163027849093184,
  673507163027849093184,
  673507163027849084994,
  673507163027849084994,
  673507163027848569024,
  673507163027848569024,
  673507163027848560834,
  673507163027848560834,
  823350366879766814784,
  823350366879766814784,
  823350366879699705924,
  823350366879699705924,
  823350366877619855424,
  823350366877619855424,
  823350366877552746564,
  823350366877552746564,
  823350366879766814784,
  823350366879766814784,
  823350366879699705924,
  823350366879699705924,
  823350366877619855424,
  823350366877619855424,
  823350366877552746564,
  823350366877552746564,
  823350366879766814784,
  823350366879766814784,
  823350366879766806594,
  823350366879766806594,
  823350366877619855424,
  823350366877619855424,
  823350366877619847234,
  823350366877619847234,
  673507163027849093184,
  673507163027849093184,
  673507163027849084994,
  673507163027849084994,
  673507163025702133824,
  673507163025702133824,
  673507163025702125634,
  673507163025702125634,
  823350366879766814784,
  823350366879766814784,
  823350366879699705924,
  823350366879699705924,
  823350366879766290624,
  823350366879766290624,
  823350366879699181764,
  823350366879699181764,
  673507163027849093184,
  673507163027849093184,
  673507163027781984324,
  673507163027781984324,
  673507163027848569024,
  673507163027848569024,
  673507163027781460164,
  673507163027781460164,
  823350366879766814784,
  823350366879766814784,
  823350366879733268544,
  823350366879733268544,
  823350366877619855424,
  823350366877619855424,
  823350366877586309184,
  823350366877586309184,
  823350366879766814784,
  823350366879766814784,
  823350366879733268544,
  823350366879733268544,
  823350366877619855424,
  823350366877619855424,
  823350366877586309184,
  823350366877586309184,
  823350366879766814784,
  823350366879766814784,
  823350366879733268544,
  823350366879733268544,
  823350366879766290624,
  823350366879766290624,
  823350366879732744384,
  823350366879732744384,
  673507163027849093184,
  673507163027849093184,
  673507163027815546944,
  673507163027815546944,
  673507163027848569024,
  673507163027848569024,
  673507163027815022784,
  673507163027815022784,
  675812443087109365824,
  675812443087109365824,
  675812443087109357634,
  675812443087109357634,
  675812443084962406464,
  675812443084962406464,
  675812443084962398274,
  675812443084962398274,
  823350366879766814784,
  823350366879766814784,
  823350366879766806594,
  823350366879766806594,
  821045086818359582784,
  821045086818359582784,
  821045086818359574594,
  821045086818359574594,
  673507163027849093184,
  673507163027849093184,
  673507163027815546944,
  673507163027815546944,
  673507163025702133824,
  673507163025702133824,
  673507163025668587584,
  673507163025668587584,
  675812443087109365824,
  675812443087109365824,
  675812443087075819584,
  675812443087075819584,
  675812443084962406464,
  675812443084962406464,
  675812443084928860224,
  675812443084928860224,
  673507163027849093184,
  673507163027849093184,
  673507163027849084994,
  673507163027849084994,
  673507163027848569024,
  673507163027848569024,
  673507163027848560834,
  673507163027848560834,
  675812443087109365824,
  675812443087109365824,
  675812443087042256964,
  675812443087042256964,
  675812443084962406464,
  675812443084962406464,
  675812443084895297604,
  675812443084895297604,
  823350366879766814784,
  823350366879766814784,
  823350366879699705924,
  823350366879699705924,
  821045086818359582784,
  821045086818359582784,
  821045086818292473924,
  821045086818292473924,
  673507163027849093184,
  673507163027849093184,
  673507163027781984324,
  673507163027781984324,
  673507163027848569024,
  673507163027848569024,
  673507163027781460164,
  673507163027781460164,
  675812443087109365824,
  675812443087109365824,
  675812443087075819584,
  675812443087075819584,
  675812443084962406464,
  675812443084962406464,
  675812443084928860224,
  675812443084928860224,
  823350366879766814784,
  823350366879766814784,
  823350366879733268544,
  823350366879733268544,
  821045086818359582784,
  821045086818359582784,
  821045086818326036544,
  821045086818326036544]
def ccdq_t4_aaabaaab_anti0_cert_3 : List Nat := [673507163027849093184,
  673507163027849093184,
  673507163025702133824,
  673507163025702133824,
  675812443087109365824,
  675812443087109365824,
  675812443084962406464,
  675812443084962406464,
  821045086820506542144,
  821045086820506542144,
  821045086818359582784,
  821045086818359582784,
  823350366879766814784,
  823350366879766814784,
  823350366877619855424,
  823350366877619855424,
  673507163027849093184,
  673507163027849093184,
  673507163027815546944,
  673507163027815546944,
  673507163027848569024,
  673507163027848569024,
  673507163027815022784,
  673507163027815022784,
  821045086820506542144,
  821045086820506542144,
  821045086820506017984,
  821045086820506017984,
  823350366879766814784,
  823350366879766814784,
  823350366877619855424,
  823350366877619855424,
  823350366879766814784,
  823350366879766814784,
  823350366877619855424,
  823350366877619855424,
  821045086820506542144,
  821045086820506542144,
  821045086818359582784,
  821045086818359582784,
  821045086820506542144,
  821045086820506542144,
  821045086820439433284,
  821045086820439433284,
  821045086818359582784,
  821045086818359582784,
  821045086818292473924,
  821045086818292473924,
  823350366879766814784,
  823350366879766814784,
  823350366879699705924,
  823350366879699705924,
  823350366877619855424,
  823350366877619855424,
  823350366877552746564,
  823350366877552746564,
  821045086820506542144,
  821045086820506542144,
  821045086820506017984,
  821045086820506017984,
  821045086820506542144,
  821045086820506542144,
  821045086820506017984,
  821045086820506017984,
  821045086820506542144,
  821045086820506542144,
  821045086820439433284,
  821045086820439433284,
  821045086820506017984,
  821045086820506017984,
  821045086820438909124,
  821045086820438909124,
  823350366879766814784,
  823350366879766814784,
  823350366877619855424,
  823350366877619855424,
  823350366879766814784,
  823350366879766814784,
  823350366877619855424,
  823350366877619855424,
  821045086820506542144,
  821045086820506542144,
  821045086818359582784,
  821045086818359582784,
  821045086820506542144,
  821045086820506542144,
  821045086820506017984,
  821045086820506017984,
  821045086820506542144,
  821045086820506542144,
  821045086820506017984,
  821045086820506017984,
  823350366879766814784,
  823350366879766814784,
  823350366877619855424,
  823350366877619855424,
  823350366879766814784,
  823350366879766814784,
  823350366877619855424,
  823350366877619855424,
  821045086820506542144,
  821045086820506542144,
  821045086818359582784,
  821045086818359582784,
  821045086820506542144,
  821045086820506542144,
  821045086820506017984,
  821045086820506017984,
  821045086820506542144,
  821045086820506542144,
  821045086820506017984,
  821045086820506017984,
  675812443087109365824,
  675812443087109365824,
  675812443087109357634,
  675812443087109357634,
  675812443087109365824,
  675812443087109365824,
  823350366879766814784,
  823350366879766814784,
  673507163027849093184,
  673507163027849093184,
  823350366879766814784,
  823350366879766814784,
  823350366879766806594,
  823350366879766806594,
  821045086820506542144,
  821045086820506542144,
  821045086820506533954,
  821045086820506533954,
  823350366879766814784,
  823350366879766814784,
  823350366879699705924,
  823350366879699705924,
  821045086820506542144,
  821045086820506542144,
  821045086820439433284,
  821045086820439433284,
  823350366879766814784,
  823350366879766814784,
  823350366879766806594,
  823350366879766806594,
  673507163027849093184,
  673507163027849093184,
  673507163027849084994,
  673507163027849084994,
  823350366879766814784,
  823350366879766814784,
  823350366879733268544,
  823350366879733268544,
  821045086820506542144,
  821045086820506542144,
  821045086820472995904,
  821045086820472995904,
  675812443087109365824,
  675812443087109365824,
  675812443087109357634,
  675812443087109357634,
  821045086820506542144,
  821045086820506542144,
  821045086820506533954,
  821045086820506533954,
  673507163027849093184,
  673507163027849093184,
  673507163027815546944,
  673507163027815546944,
  675812443087109365824,
  675812443087109365824,
  675812443087075819584,
  675812443087075819584,
  675812443087109365824,
  675812443087109365824,
  675812443087042256964,
  675812443087042256964,
  821045086820506542144,
  821045086820506542144,
  821045086820439433284,
  821045086820439433284,
  675812443087109365824,
  675812443087109365824,
  675812443087075819584,
  675812443087075819584,
  821045086820506542144,
  821045086820506542144,
  821045086820472995904,
  821045086820472995904,
  673507163027849093184,
  673507163027849093184,
  675812443087109365824,
  675812443087109365824,
  821045086820506542144,
  821045086820506542144,
  823350366879766814784,
  823350366879766814784,
  823350366879766814784,
  823350366879766814784,
  823350366879766814784,
  823350366879766814784,
  821045086820506542144,
  821045086820506542144,
  821045086820506542144,
  821045086820506542144,
  821045086820439433284,
  821045086820439433284,
  823350366879766814784,
  823350366879766814784,
  823350366879699705924,
  823350366879699705924,
  823350366879766814784,
  823350366879766814784,
  823350366879766814784,
  823350366879766814784,
  821045086820506542144,
  821045086820506542144,
  823350366879766814784,
  823350366879766814784,
  823350366879766814784,
  823350366879766814784,
  821045086820506542144,
  821045086820506542144,
  823350366879766814784,
  823350366879766814784,
  823350366879766806594,
  823350366879766806594,
  673507163027849093184,
  673507163027849093184,
  673507163027849084994,
  673507163027849084994,
  823350366879766814784,
  823350366879766814784,
  823350366879699705924,
  823350366879699705924,
  673507163027849093184,
  673507163027849093184,
  673507163027781984324,
  673507163027781984324,
  823350366879766814784,
  823350366879766814784,
  823350366879733268544,
  823350366879733268544,
  673507163027849093184,
  673507163027849093184,
  673507163027815546944,
  673507163027815546944,
  673507163027849093184,
  673507163027849093184,
  673507163027849084994,
  673507163027849084994,
  673507163027849093184,
  673507163027849093184,
  673507163027781984324,
  673507163027781984324,
  673507163027849093184,
  673507163027849093184,
  673507163027815546944,
  673507163027815546944,
  821045086820506542144,
  821045086820506542144,
  821045086820506542144,
  821045086820506542144,
  821045086820506542144,
  821045086820506542144,
  821045086820506542144,
  821045086820506542144,
  821045086820439433284,
  821045086820439433284,
  821045086820506542144,
  821045086820506542144,
  821045086820506542144,
  821045086820506542144,
  821045086820506542144,
  821045086820506542144,
  821045086820506542144,
  821045086820506542144,
  2283001744720194,
  2282999598284994,
  2283001744720194,
  2282999598284994,
  2283001744720194,
  2282999598284994,
  2283001744728384,
  2282999598293184,
  162160788516372802,
  162160786369937602,
  162160788517421122,
  162160788517421122,
  162160788516372802,
  162160786369937602,
  162160788516372802,
  162160786369937602,
  9226217988552917314,
  9226217986406482114,
  9226217988485824834,
  9226217986372927684,
  11531498047813189954,
  11531498045666754754,
  11531498047746097474,
  11531498045633200324,
  9226217988552917314,
  9226217986406482114,
  11531498047813189954,
  11531498045666754754,
  9226217988552917314,
  9226217986406482114,
  9226217988552917314,
  9226217986406482114,
  9226217988519362884,
  9226217986339389634,
  164412588330058050,
  164412586183622850,
  164412588331106370,
  164412588331106370,
  164412588330058050,
  164412586183622850,
  164412588331106370,
  164412588331106370,
  164412588330058050,
  164412586183622850,
  164412588331106370,
  164412588331106370,
  164412588330058050,
  164412586183622850,
  164412588330066240,
  164412586183631040,
  164412588331106370,
  164412588331106370,
  164412588331114560,
  164412588331114560,
  164412588330058050,
  164412586183622850,
  164412588330066240,
  164412586183631040,
  164412588331106370,
  164412588331106370,
  164412588331114560,
  164412588331114560,
  164412588330058050,
  164412586183622850,
  164412588330058050,
  164412586183622850,
  164412588330058050,
  164412586183622850,
  164412588330058050,
  164412586183622850,
  164412588330058050,
  164412586183622850,
  164412588330058050,
  164412586183622850,
  164412588330058050,
  164412586183622850,
  164412588330066240,
  164412586183631040,
  164412588330058050,
  164412586183622850,
  164412588330066240,
  164412586183631040,
  164412588330058050,
  164412586183622850,
  164412588330066240,
  164412586183631040,
  811818900031736643906,
  811818900029590208706,
  811818900029589684546,
  811818900029589684546,
  811818900031736643906,
  811818900029590208706,
  811818900031737692226,
  811818900031737692226,
  664280976239079194946,
  664280976236932759746,
  664280976239080243266,
  664280976239080243266,
  811818900031736643906,
  811818900029590208706,
  811818900031736643906,
  811818900029590208706,
  664280976239079194946,
  664280976236932759746,
  823350366877618798914,
  823350366875472363714,
  675812443084961349954,
  675812443082814914754,
  823350366877618798914,
  823350366875472363714,
  823350366877618798914,
  823350366875472363714,
  821045086818358526274,
  821045086816212091074,
  673507163025701077314,
  673507163023554642114,
  823350366877618798914,
  823350366875472363714,
  823350366877618807104,
  823350366875472371904,
  821045086818358526274,
  821045086816212091074,
  821045086818358534464,
  821045086816212099264,
  673507163025701077314,
  673507163023554642114]
def ccdq_t4_aaabaaab_anti0_cert_4 : List Nat := [673507163025701085504,
  673507163023554650304,
  821045086818358526274,
  821045086816212091074,
  821045086818291433794,
  821045086816178536644,
  823350366877618798914,
  823350366875472363714,
  823350366877551706434,
  823350366875438809284,
  673507163025701077314,
  673507163023554642114,
  673507163025633984834,
  673507163023521087684,
  675812443084961349954,
  675812443082814914754,
  675812443084894257474,
  675812443082781360324,
  821045086818358526274,
  821045086816212091074,
  823350366877618798914,
  823350366875472363714,
  673507163025701077314,
  673507163023554642114,
  675812443084961349954,
  675812443082814914754,
  821045086818358526274,
  821045086816212091074,
  821045086818358526274,
  821045086816212091074,
  821045086818324971844,
  821045086816144998594,
  821045086818358526274,
  821045086816212091074,
  821045086818359574594,
  821045086818359574594,
  673507163025701077314,
  673507163023554642114,
  673507163025702125634,
  673507163025702125634,
  675812443084961349954,
  675812443082814914754,
  675812443084962398274,
  675812443084962398274,
  675812443084961349954,
  675812443082814914754,
  675812443084962398274,
  675812443084962398274,
  823350366877618798914,
  823350366875472363714,
  823350366877619847234,
  823350366877619847234,
  823350366877618798914,
  823350366875472363714,
  823350366877619847234,
  823350366877619847234,
  673507163025701077314,
  673507163023554642114,
  673507163025702125634,
  673507163025702125634,
  823350366877618798914,
  823350366875472363714,
  823350366877619847234,
  823350366877619847234,
  823350366877618798914,
  823350366875472363714,
  823350366877618807104,
  823350366875472371904,
  823350366877619847234,
  823350366877619847234,
  823350366877619855424,
  823350366877619855424,
  823350366877618798914,
  823350366875472363714,
  823350366877618807104,
  823350366875472371904,
  823350366877619847234,
  823350366877619847234,
  823350366877619855424,
  823350366877619855424,
  673507163025701077314,
  673507163023554642114,
  673507163025701085504,
  673507163023554650304,
  673507163025702125634,
  673507163025702125634,
  673507163025702133824,
  673507163025702133824,
  823350366877618798914,
  823350366875472363714,
  823350366877618807104,
  823350366875472371904,
  823350366877619847234,
  823350366877619847234,
  823350366877619855424,
  823350366877619855424,
  673507163025701077314,
  673507163023554642114,
  673507163025633984834,
  673507163023521087684,
  673507163025702125634,
  673507163025702125634,
  673507163025635033154,
  673507163025668571204,
  675812443084961349954,
  675812443082814914754,
  675812443084894257474,
  675812443082781360324,
  675812443084962398274,
  675812443084962398274,
  675812443084895305794,
  675812443084928843844,
  821045086818358526274,
  821045086816212091074,
  821045086818291433794,
  821045086816178536644,
  821045086818359574594,
  821045086818359574594,
  821045086818292482114,
  821045086818326020164,
  673507163025701077314,
  673507163023554642114,
  673507163025702125634,
  673507163025702125634,
  675812443084961349954,
  675812443082814914754,
  675812443084962398274,
  675812443084962398274,
  821045086818358526274,
  821045086816212091074,
  821045086818359574594,
  821045086818359574594,
  821045086818358526274,
  821045086816212091074,
  821045086818359574594,
  821045086818359574594,
  821045086818358526274,
  821045086816212091074,
  821045086818359574594,
  821045086818359574594,
  823350366877618798914,
  823350366875472363714,
  823350366877619847234,
  823350366877619847234,
  821045086818358526274,
  821045086816212091074,
  821045086818324971844,
  821045086816144998594,
  821045086818359574594,
  821045086818359574594,
  821045086818326020164,
  821045086818292482114,
  821045086818358526274,
  821045086816212091074,
  821045086818324971844,
  821045086816144998594,
  821045086818359574594,
  821045086818359574594,
  821045086818326020164,
  821045086818292482114,
  823350366877618798914,
  823350366875472363714,
  823350366877585244484,
  823350366875405271234,
  823350366877619847234,
  823350366877619847234,
  823350366877586292804,
  823350366877552754754,
  821045086818358526274,
  821045086816212091074,
  673507163025701077314,
  673507163023554642114,
  675812443084961349954,
  675812443082814914754,
  821045086818358526274,
  821045086816212091074,
  823350366877618798914,
  823350366875472363714,
  821045086818358526274,
  821045086816212091074,
  675812443084961349954,
  675812443082814914754,
  823350366877618798914,
  823350366875472363714,
  823350366877618798914,
  823350366875472363714,
  673507163025701077314,
  673507163023554642114,
  823350366877618798914,
  823350366875472363714,
  823350366877618798914,
  823350366875472363714,
  823350366877618798914,
  823350366875472363714,
  673507163025701077314,
  673507163023554642114,
  823350366877618798914,
  823350366875472363714,
  821045086818358526274,
  821045086816212091074,
  823350366877618798914,
  823350366875472363714,
  823350366877618807104,
  823350366875472371904,
  823350366877618798914,
  823350366875472363714,
  823350366877618807104,
  823350366875472371904,
  673507163025701077314,
  673507163023554642114,
  673507163025701085504,
  673507163023554650304,
  823350366877618798914,
  823350366875472363714,
  823350366877618807104,
  823350366875472371904,
  821045086818358526274,
  821045086816212091074,
  821045086818358534464,
  821045086816212099264,
  673507163025701077314,
  673507163023554642114,
  673507163025633984834,
  673507163023521087684,
  675812443084961349954,
  675812443082814914754,
  675812443084894257474,
  675812443082781360324,
  821045086818358526274,
  821045086816212091074,
  821045086818291433794,
  821045086816178536644,
  821045086818358526274,
  821045086816212091074,
  821045086818291433794,
  821045086816178536644,
  821045086818358526274,
  821045086816212091074,
  821045086818291433794,
  821045086816178536644,
  823350366877618798914,
  823350366875472363714,
  823350366877551706434,
  823350366875438809284,
  673507163025701077314,
  673507163023554642114,
  675812443084961349954,
  675812443082814914754,
  821045086818358526274,
  821045086816212091074,
  821045086818358526274,
  821045086816212091074,
  821045086818358526274,
  821045086816212091074,
  823350366877618798914,
  823350366875472363714,
  821045086818358526274,
  821045086816212091074,
  821045086818358526274,
  821045086816212091074,
  823350366877618798914,
  823350366875472363714,
  821045086818358526274,
  821045086816212091074,
  821045086818324971844,
  821045086816144998594,
  821045086818358526274,
  821045086816212091074,
  821045086818324971844,
  821045086816144998594,
  823350366877618798914,
  823350366875472363714,
  823350366877585244484,
  823350366875405271234,
  821045086818358526274,
  821045086816212091074,
  821045086816211566914,
  821045086816211566914,
  823350366877618798914,
  823350366875472363714,
  823350366875471839554,
  823350366875471839554,
  823350366877618798914,
  823350366875472363714,
  823350366875471839554,
  823350366875471839554,
  675812443084961349954,
  675812443082814914754,
  675812443082814390594,
  675812443082814390594,
  823350366877618798914,
  823350366875472363714,
  823350366877618807104,
  823350366875472371904,
  823350366875471839554,
  823350366875471839554,
  823350366875471847744,
  823350366875471847744,
  823350366877618798914,
  823350366875472363714,
  823350366877618807104,
  823350366875472371904,
  823350366875471839554,
  823350366875471839554,
  823350366875471847744,
  823350366875471847744,
  675812443084961349954,
  675812443082814914754,
  675812443084961358144,
  675812443082814922944,
  675812443082814390594,
  675812443082814390594,
  675812443082814398784,
  675812443082814398784,
  821045086818358526274,
  821045086816212091074,
  821045086818359574594,
  821045086818359574594,
  673507163025701077314,
  673507163023554642114,
  673507163025702125634,
  673507163025702125634,
  823350366877618798914,
  823350366875472363714,
  823350366877619847234,
  823350366877619847234,
  675812443084961349954,
  675812443082814914754,
  675812443084962398274,
  675812443084962398274,
  823350366877618798914,
  823350366875472363714,
  823350366877619847234,
  823350366877619847234,
  823350366877618798914,
  823350366875472363714,
  823350366877619847234,
  823350366877619847234,
  675812443084961349954,
  675812443082814914754,
  675812443084962398274,
  675812443084962398274,
  821045086818358526274,
  821045086816212091074,
  821045086818359574594,
  821045086818359574594,
  673507163025701077314,
  673507163023554642114,
  673507163025702125634,
  673507163025702125634,
  823350366877618798914,
  823350366875472363714,
  823350366877619847234,
  823350366877619847234,
  821045086818358526274,
  821045086816212091074,
  821045086818358534464,
  821045086816212099264,
  821045086818359574594,
  821045086818359574594,
  821045086818359582784,
  821045086818359582784,
  673507163025701077314,
  673507163023554642114,
  673507163025701085504,
  673507163023554650304,
  673507163025702125634,
  673507163025702125634,
  673507163025702133824,
  673507163025702133824,
  823350366877618798914,
  823350366875472363714,
  823350366877618807104,
  823350366875472371904,
  823350366877619847234,
  823350366877619847234,
  823350366877619855424,
  823350366877619855424,
  821045086818358526274,
  821045086816212091074,
  821045086818358526274,
  821045086816212091074,
  673507163025701077314,
  673507163023554642114,
  823350366877618798914,
  823350366875472363714,
  675812443084961349954,
  675812443082814914754,
  823350366877618798914,
  823350366875472363714,
  823350366877618798914,
  823350366875472363714,
  675812443084961349954,
  675812443082814914754,
  823350366877618798914,
  823350366875472363714,
  823350366877618798914,
  823350366875472363714,
  675812443084961349954,
  675812443082814914754]
def ccdq_t4_aaabaaab_anti0_cert_5 : List Nat := [821045086818358526274,
  821045086816212091074,
  673507163025701077314,
  673507163023554642114,
  823350366877618798914,
  823350366875472363714,
  823350366877618798914,
  823350366875472363714,
  823350366877618807104,
  823350366875472371904,
  823350366877618798914,
  823350366875472363714,
  823350366877618807104,
  823350366875472371904,
  675812443084961349954,
  675812443082814914754,
  675812443084961358144,
  675812443082814922944,
  821045086818358526274,
  821045086816212091074,
  821045086818358534464,
  821045086816212099264,
  673507163025701077314,
  673507163023554642114,
  673507163025701085504,
  673507163023554650304,
  823350366877618798914,
  823350366875472363714,
  823350366877618807104,
  823350366875472371904,
  11531498047813189954,
  11531498045666754754,
  11531498047813198144,
  11531498045666762944,
  11531498045666230594,
  11531498045666230594,
  11531498045666238784,
  11531498045666238784,
  9226217988552917314,
  9226217986406482114,
  9226217988552925504,
  9226217986406490304,
  11531498047813189954,
  11531498045666754754,
  11531498047779635524,
  11531498045599662274,
  11531498045666230594,
  11531498045666230594,
  11531498045632676164,
  11531498045599138114,
  9226217988552917314,
  9226217986406482114,
  9226217988519362884,
  9226217986339389634,
  11531498047813189954,
  11531498045666754754,
  11531498047746097474,
  11531498045633200324,
  11531498045666230594,
  11531498045666230594,
  11531498045599138114,
  11531498045632676164,
  9226217988552917314,
  9226217986406482114,
  9226217988485824834,
  9226217986372927684,
  11531498047813189954,
  11531498045666754754,
  11531498045666230594,
  11531498045666230594,
  9226217988552917314,
  9226217986406482114,
  11531498047813189954,
  11531498045666754754,
  11531498045666230594,
  11531498045666230594,
  9226217988552917314,
  9226217986406482114,
  11531498047813189954,
  11531498045666754754,
  11531498045666230594,
  11531498045666230594,
  9226217988552917314,
  9226217986406482114,
  164412588330058050,
  164412586183622850,
  164412588330066240,
  164412586183631040,
  164412586183098690,
  164412586183098690,
  164412586183106880,
  164412586183106880,
  164412588330058050,
  164412586183622850,
  164412586183098690,
  164412586183098690,
  164412588330058050,
  164412586183622850,
  164412586183098690,
  164412586183098690,
  164412588330058050,
  164412586183622850,
  164412588330066240,
  164412586183631040,
  164412586183098690,
  164412586183098690,
  164412586183106880,
  164412586183106880,
  164412588330058050,
  164412586183622850,
  164412588330066240,
  164412586183631040,
  164412588331106370,
  164412588331106370,
  164412588331114560,
  164412588331114560,
  164412588330058050,
  164412586183622850,
  164412588296503620,
  164412586116530370,
  164412586183098690,
  164412586183098690,
  164412586149544260,
  164412586116006210,
  164412588330058050,
  164412586183622850,
  164412588330066240,
  164412586183631040,
  164412586183098690,
  164412586183098690,
  164412586183106880,
  164412586183106880,
  164412588330058050,
  164412586183622850,
  164412588296503620,
  164412586116530370,
  164412588331106370,
  164412588331106370,
  164412588297551940,
  164412588264013890,
  164412588330058050,
  164412586183622850,
  164412588262965570,
  164412586150068420,
  164412586183098690,
  164412586183098690,
  164412586116006210,
  164412586149544260,
  164412588330058050,
  164412586183622850,
  164412588262965570,
  164412586150068420,
  164412588331106370,
  164412588331106370,
  164412588264013890,
  164412588297551940,
  164412588330058050,
  164412586183622850,
  164412588330066240,
  164412586183631040,
  164412590477541570,
  164412590477541570,
  164412590477549760,
  164412590477549760,
  164412588330058050,
  164412586183622850,
  164412590477541570,
  164412590477541570,
  164412588330058050,
  164412586183622850,
  164412590477541570,
  164412590477541570,
  164412588330058050,
  164412586183622850,
  164412588330066240,
  164412586183631040,
  164412590477541570,
  164412590477541570,
  164412590477549760,
  164412590477549760,
  164412588330058050,
  164412586183622850,
  164412588296503620,
  164412586116530370,
  164412590477541570,
  164412590477541570,
  164412590443987140,
  164412590410449090,
  164412588330058050,
  164412586183622850,
  164412588330066240,
  164412586183631040,
  164412590477541570,
  164412590477541570,
  164412590477549760,
  164412590477549760,
  164412588330058050,
  164412586183622850,
  164412588262965570,
  164412586150068420,
  164412590477541570,
  164412590477541570,
  164412590410449090,
  164412590443987140,
  164412588330058050,
  164412586183622850,
  164412588330066240,
  164412586183631040,
  164412588331106370,
  164412588331106370,
  164412588331114560,
  164412588331114560,
  164412588330058050,
  164412586183622850,
  164412588331106370,
  164412588331106370,
  164412588330058050,
  164412586183622850,
  164412588331106370,
  164412588331106370,
  164412588330058050,
  164412586183622850,
  164412588330066240,
  164412586183631040,
  164412588330058050,
  164412586183622850,
  164412588330058050,
  164412586183622850,
  164412588330066240,
  164412586183631040,
  164412588331106370,
  164412588331106370,
  164412588331114560,
  164412588331114560,
  164412588330058050,
  164412586183622850,
  164412588330066240,
  164412586183631040,
  164412588330058050,
  164412586183622850,
  164412588330066240,
  164412586183631040,
  164412588330058050,
  164412586183622850,
  164412588296503620,
  164412586116530370,
  164412588331106370,
  164412588331106370,
  164412588297551940,
  164412588264013890,
  164412588330058050,
  164412586183622850,
  164412588330066240,
  164412586183631040,
  164412588331106370,
  164412588331106370,
  164412588331114560,
  164412588331114560,
  164412588330058050,
  164412586183622850,
  164412588296503620,
  164412586116530370,
  164412588330058050,
  164412586183622850,
  164412588296503620,
  164412586116530370,
  164412588330058050,
  164412586183622850,
  164412588262965570,
  164412586150068420,
  164412588331106370,
  164412588331106370,
  164412588264013890,
  164412588297551940,
  164412588330058050,
  164412586183622850,
  164412588262965570,
  164412586150068420,
  164412588330058050,
  164412586183622850,
  164412588262965570,
  164412586150068420,
  164412588330058050,
  164412586183622850,
  164412588330066240,
  164412586183631040,
  164412588331106370,
  164412588331106370,
  164412588331114560,
  164412588331114560,
  164412588330058050,
  164412586183622850,
  164412588331106370,
  164412588331106370,
  164412588330058050,
  164412586183622850,
  164412588330066240,
  164412586183631040,
  164412588331106370,
  164412588331106370,
  164412588331114560,
  164412588331114560,
  164412588330058050,
  164412586183622850,
  164412588296503620,
  164412586116530370,
  164412588331106370,
  164412588331106370,
  164412588297551940,
  164412588264013890,
  164412588330058050,
  164412586183622850,
  164412588262965570,
  164412586150068420,
  164412588331106370,
  164412588331106370,
  164412588264013890,
  164412588297551940,
  811818900031736643906,
  811818900029590208706,
  811818900029589684546,
  811818900029589684546,
  811818900031736643906,
  811818900029590208706,
  811818900031703089476,
  811818900029523116226,
  811818900029589684546,
  811818900029589684546,
  811818900029556130116,
  811818900029522592066,
  664280976239079194946,
  664280976236932759746,
  664280976239012102466,
  664280976236899205316,
  664280976239080243266,
  664280976239080243266,
  664280976239013150786,
  664280976239046688836,
  664280976239079194946,
  664280976236932759746,
  664280976239080243266,
  664280976239080243266,
  811818900031736643906,
  811818900029590208706,
  811818900031737692226,
  811818900031737692226,
  811818900031736643906,
  811818900029590208706,
  811818900031703089476,
  811818900029523116226,
  811818900031737692226,
  811818900031737692226,
  811818900031704137796,
  811818900031670599746,
  664280976239079194946,
  664280976236932759746,
  664280976239012102466,
  664280976236899205316,
  664280976239079194946,
  664280976236932759746,
  811818900031736643906,
  811818900029590208706,
  811818900031736643906,
  811818900029590208706,
  811818900031736643906,
  811818900029590208706,
  811818900031703089476,
  811818900029523116226,
  811818900031736643906,
  811818900029590208706,
  811818900031703089476,
  811818900029523116226,
  823350366877618798914,
  823350366875472363714,
  823350366877618807104,
  823350366875472371904,
  823350366875471839554,
  823350366875471839554,
  823350366875471847744,
  823350366875471847744,
  675812443084961349954,
  675812443082814914754,
  675812443084961358144,
  675812443082814922944,
  675812443082814390594,
  675812443082814390594,
  675812443082814398784,
  675812443082814398784,
  821045086818358526274,
  821045086816212091074,
  821045086818358534464,
  821045086816212099264,
  673507163025701077314,
  673507163023554642114,
  673507163025701085504,
  673507163023554650304,
  823350366877618798914,
  823350366875472363714,
  823350366877585244484,
  823350366875405271234]
def ccdq_t4_aaabaaab_anti0_cert_6 : List Nat := [823350366875471839554,
  823350366875471839554,
  823350366875438285124,
  823350366875404747074,
  675812443084961349954,
  675812443082814914754,
  675812443084927795524,
  675812443082747822274,
  675812443082814390594,
  675812443082814390594,
  675812443082780836164,
  675812443082747298114,
  821045086818358526274,
  821045086816212091074,
  821045086818324971844,
  821045086816144998594,
  673507163025701077314,
  673507163023554642114,
  673507163025667522884,
  673507163023487549634,
  823350366877618798914,
  823350366875472363714,
  823350366877551706434,
  823350366875438809284,
  823350366875471839554,
  823350366875471839554,
  823350366875404747074,
  823350366875438285124,
  675812443084961349954,
  675812443082814914754,
  675812443084894257474,
  675812443082781360324,
  675812443082814390594,
  675812443082814390594,
  675812443082747298114,
  675812443082780836164,
  821045086818358526274,
  821045086816212091074,
  821045086818291433794,
  821045086816178536644,
  673507163025701077314,
  673507163023554642114,
  673507163025633984834,
  673507163023521087684,
  823350366877618798914,
  823350366875472363714,
  823350366875471839554,
  823350366875471839554,
  821045086818358526274,
  821045086816212091074,
  823350366877618798914,
  823350366875472363714,
  823350366875471839554,
  823350366875471839554,
  821045086818358526274,
  821045086816212091074,
  823350366877618798914,
  823350366875472363714,
  823350366875471839554,
  823350366875471839554,
  821045086818358526274,
  821045086816212091074,
  675812443084961349954,
  675812443082814914754,
  675812443084961358144,
  675812443082814922944,
  675812443082814390594,
  675812443082814390594,
  675812443082814398784,
  675812443082814398784,
  675812443084961349954,
  675812443082814914754,
  675812443082814390594,
  675812443082814390594,
  675812443084961349954,
  675812443082814914754,
  675812443082814390594,
  675812443082814390594,
  673507163025701077314,
  673507163023554642114,
  673507163023554117954,
  673507163023554117954,
  823350366877618798914,
  823350366875472363714,
  823350366877618807104,
  823350366875472371904,
  823350366875471839554,
  823350366875471839554,
  823350366875471847744,
  823350366875471847744,
  673507163025701077314,
  673507163023554642114,
  673507163025701085504,
  673507163023554650304,
  673507163023554117954,
  673507163023554117954,
  673507163023554126144,
  673507163023554126144,
  823350366877618798914,
  823350366875472363714,
  823350366877618807104,
  823350366875472371904,
  823350366877619847234,
  823350366877619847234,
  823350366877619855424,
  823350366877619855424,
  673507163025701077314,
  673507163023554642114,
  673507163025701085504,
  673507163023554650304,
  673507163025702125634,
  673507163025702125634,
  673507163025702133824,
  673507163025702133824,
  823350366877618798914,
  823350366875472363714,
  823350366877585244484,
  823350366875405271234,
  823350366875471839554,
  823350366875471839554,
  823350366875438285124,
  823350366875404747074,
  673507163025701077314,
  673507163023554642114,
  673507163025667522884,
  673507163023487549634,
  673507163023554117954,
  673507163023554117954,
  673507163023520563524,
  673507163023487025474,
  675812443084961349954,
  675812443082814914754,
  675812443084961358144,
  675812443082814922944,
  675812443082814390594,
  675812443082814390594,
  675812443082814398784,
  675812443082814398784,
  673507163025701077314,
  673507163023554642114,
  673507163025701085504,
  673507163023554650304,
  673507163023554117954,
  673507163023554117954,
  673507163023554126144,
  673507163023554126144,
  823350366877618798914,
  823350366875472363714,
  823350366877585244484,
  823350366875405271234,
  823350366877619847234,
  823350366877619847234,
  823350366877586292804,
  823350366877552754754,
  673507163025701077314,
  673507163023554642114,
  673507163025667522884,
  673507163023487549634,
  673507163025702125634,
  673507163025702125634,
  673507163025668571204,
  673507163025635033154,
  823350366877618798914,
  823350366875472363714,
  823350366877551706434,
  823350366875438809284,
  823350366875471839554,
  823350366875471839554,
  823350366875404747074,
  823350366875438285124,
  673507163025701077314,
  673507163023554642114,
  673507163025633984834,
  673507163023521087684,
  673507163023554117954,
  673507163023554117954,
  673507163023487025474,
  673507163023520563524,
  823350366877618798914,
  823350366875472363714,
  823350366877551706434,
  823350366875438809284,
  823350366877619847234,
  823350366877619847234,
  823350366877552754754,
  823350366877586292804,
  673507163025701077314,
  673507163023554642114,
  673507163025633984834,
  673507163023521087684,
  673507163025702125634,
  673507163025702125634,
  673507163025635033154,
  673507163025668571204,
  675812443084961349954,
  675812443082814914754,
  675812443084961358144,
  675812443082814922944,
  675812443082814390594,
  675812443082814390594,
  675812443082814398784,
  675812443082814398784,
  675812443084961349954,
  675812443082814914754,
  675812443084961358144,
  675812443082814922944,
  673507163023554117954,
  673507163023554117954,
  673507163023554126144,
  673507163023554126144,
  673507163025701077314,
  673507163023554642114,
  673507163025633984834,
  673507163023521087684,
  673507163023554117954,
  673507163023554117954,
  673507163023487025474,
  673507163023520563524,
  675812443084961349954,
  675812443082814914754,
  675812443084894257474,
  675812443082781360324,
  675812443082814390594,
  675812443082814390594,
  675812443082747298114,
  675812443082780836164,
  673507163025701077314,
  673507163023554642114,
  673507163025701085504,
  673507163023554650304,
  673507163025702125634,
  673507163025702125634,
  673507163025702133824,
  673507163025702133824,
  675812443084961349954,
  675812443082814914754,
  675812443084927795524,
  675812443082747822274,
  675812443082814390594,
  675812443082814390594,
  675812443082780836164,
  675812443082747298114,
  675812443084961349954,
  675812443082814914754,
  675812443084927795524,
  675812443082747822274,
  673507163023554117954,
  673507163023554117954,
  673507163023520563524,
  673507163023487025474,
  673507163025701077314,
  673507163023554642114,
  673507163025667522884,
  673507163023487549634,
  673507163025702125634,
  673507163025702125634,
  673507163025668571204,
  673507163025635033154,
  675812443084961349954,
  675812443082814914754,
  675812443084894257474,
  675812443082781360324,
  675812443082814390594,
  675812443082814390594,
  675812443082747298114,
  675812443082780836164,
  675812443084961349954,
  675812443082814914754,
  675812443084894257474,
  675812443082781360324,
  673507163023554117954,
  673507163023554117954,
  673507163023487025474,
  673507163023520563524,
  673507163025701077314,
  673507163023554642114,
  673507163023554117954,
  673507163023554117954,
  675812443084961349954,
  675812443082814914754,
  675812443082814390594,
  675812443082814390594,
  821045086818358526274,
  821045086816212091074,
  821045086816211566914,
  821045086816211566914,
  823350366877618798914,
  823350366875472363714,
  823350366875471839554,
  823350366875471839554,
  673507163025701077314,
  673507163023554642114,
  673507163025633984834,
  673507163023521087684,
  673507163025702125634,
  673507163025702125634,
  673507163025635033154,
  673507163025668571204,
  821045086818358526274,
  821045086816212091074,
  821045086818359574594,
  821045086818359574594,
  823350366877618798914,
  823350366875472363714,
  823350366875471839554,
  823350366875471839554,
  675812443084961349954,
  675812443082814914754,
  675812443082814390594,
  675812443082814390594,
  821045086818358526274,
  821045086816212091074,
  821045086816211566914,
  821045086816211566914,
  821045086818358526274,
  821045086816212091074,
  821045086818324971844,
  821045086816144998594,
  821045086816211566914,
  821045086816211566914,
  821045086816178012484,
  821045086816144474434,
  823350366877618798914,
  823350366875472363714,
  823350366877585244484,
  823350366875405271234,
  823350366875471839554,
  823350366875471839554,
  823350366875438285124,
  823350366875404747074,
  821045086818358526274,
  821045086816212091074,
  821045086818359574594,
  821045086818359574594,
  821045086818358526274,
  821045086816212091074,
  821045086818359574594,
  821045086818359574594,
  821045086818358526274,
  821045086816212091074,
  821045086818324971844,
  821045086816144998594,
  821045086818359574594,
  821045086818359574594,
  821045086818326020164,
  821045086818292482114,
  823350366877618798914,
  823350366875472363714,
  823350366875471839554,
  823350366875471839554,
  675812443084961349954,
  675812443082814914754,
  675812443082814390594,
  675812443082814390594,
  821045086818358526274,
  821045086816212091074,
  821045086816211566914,
  821045086816211566914,
  821045086818358526274,
  821045086816212091074,
  821045086818359574594,
  821045086818359574594,
  821045086818358526274,
  821045086816212091074,
  821045086818359574594,
  821045086818359574594,
  823350366877618798914,
  823350366875472363714,
  823350366875471839554,
  823350366875471839554,
  675812443084961349954,
  675812443082814914754,
  675812443082814390594,
  675812443082814390594,
  821045086818358526274,
  821045086816212091074,
  821045086816211566914,
  821045086816211566914,
  821045086818358526274,
  821045086816212091074,
  821045086818359574594,
  821045086818359574594,
  821045086818358526274,
  821045086816212091074,
  821045086818359574594,
  821045086818359574594,
  675812443084961349954,
  675812443082814914754,
  675812443084961358144,
  675812443082814922944,
  675812443084961349954,
  675812443082814914754,
  823350366877618798914,
  823350366875472363714,
  673507163025701077314,
  673507163023554642114,
  823350366877618798914,
  823350366875472363714,
  823350366877618807104,
  823350366875472371904]
def ccdq_t4_aaabaaab_anti0_cert_7 : List Nat := [823350366877618798914,
  823350366875472363714,
  823350366877618807104,
  823350366875472371904,
  823350366877618798914,
  823350366875472363714,
  823350366877585244484,
  823350366875405271234,
  823350366877618798914,
  823350366875472363714,
  823350366877585244484,
  823350366875405271234,
  823350366877618798914,
  823350366875472363714,
  823350366877618807104,
  823350366875472371904,
  673507163025701077314,
  673507163023554642114,
  673507163025701085504,
  673507163023554650304,
  823350366877618798914,
  823350366875472363714,
  823350366877551706434,
  823350366875438809284,
  823350366877618798914,
  823350366875472363714,
  823350366877551706434,
  823350366875438809284,
  675812443084961349954,
  675812443082814914754,
  675812443084961358144,
  675812443082814922944,
  823350366877618798914,
  823350366875472363714,
  823350366877618807104,
  823350366875472371904,
  673507163025701077314,
  673507163023554642114,
  673507163025633984834,
  673507163023521087684,
  675812443084961349954,
  675812443082814914754,
  675812443084894257474,
  675812443082781360324,
  675812443084961349954,
  675812443082814914754,
  675812443084927795524,
  675812443082747822274,
  823350366877618798914,
  823350366875472363714,
  823350366877585244484,
  823350366875405271234,
  675812443084961349954,
  675812443082814914754,
  675812443084894257474,
  675812443082781360324,
  823350366877618798914,
  823350366875472363714,
  823350366877551706434,
  823350366875438809284,
  673507163025701077314,
  673507163023554642114,
  675812443084961349954,
  675812443082814914754,
  821045086818358526274,
  821045086816212091074,
  823350366877618798914,
  823350366875472363714,
  823350366877618798914,
  823350366875472363714,
  823350366877618798914,
  823350366875472363714,
  821045086818358526274,
  821045086816212091074,
  821045086818358526274,
  821045086816212091074,
  821045086818324971844,
  821045086816144998594,
  823350366877618798914,
  823350366875472363714,
  823350366877585244484,
  823350366875405271234,
  823350366877618798914,
  823350366875472363714,
  823350366877618798914,
  823350366875472363714,
  821045086818358526274,
  821045086816212091074,
  823350366877618798914,
  823350366875472363714,
  823350366877618798914,
  823350366875472363714,
  821045086818358526274,
  821045086816212091074,
  823350366877618798914,
  823350366875472363714,
  823350366877618807104,
  823350366875472371904,
  673507163025701077314,
  673507163023554642114,
  673507163025701085504,
  673507163023554650304,
  823350366877618798914,
  823350366875472363714,
  823350366877585244484,
  823350366875405271234,
  673507163025701077314,
  673507163023554642114,
  673507163025667522884,
  673507163023487549634,
  823350366877618798914,
  823350366875472363714,
  823350366877551706434,
  823350366875438809284,
  673507163025701077314,
  673507163023554642114,
  673507163025633984834,
  673507163023521087684,
  673507163025701077314,
  673507163023554642114,
  673507163025701085504,
  673507163023554650304,
  673507163025701077314,
  673507163023554642114,
  673507163025667522884,
  673507163023487549634,
  673507163025701077314,
  673507163023554642114,
  673507163025633984834,
  673507163023521087684,
  821045086818358526274,
  821045086816212091074,
  821045086818358526274,
  821045086816212091074,
  821045086818358526274,
  821045086816212091074,
  821045086818358526274,
  821045086816212091074,
  821045086818324971844,
  821045086816144998594,
  821045086818358526274,
  821045086816212091074,
  821045086818358526274,
  821045086816212091074,
  821045086818358526274,
  821045086816212091074,
  821045086818358526274,
  821045086816212091074]

/-- Check ccdq_t4_aaabaaab_anti0. Sign of aaabaaab under [1, 2, 0, 3, 5, 4, 6, 7]. -/
theorem ccdq_t4_aaabaaab_anti0 : isZero kinds [aᵥ, bᵥ, cᵥ, dᵥ, iₒ, jₒ, kₒ, lₒ] 100000000000000
    (ccdq_t4_aaabaaab ++ (Prog.outs [1, 2, 0, 3, 5, 4, 6, 7] (ccdq_t4_aaabaaab)))
    (ccdq_t4_aaabaaab_anti0_cert_0 ++ (ccdq_t4_aaabaaab_anti0_cert_1 ++ (ccdq_t4_aaabaaab_anti0_cert_2 ++ (ccdq_t4_aaabaaab_anti0_cert_3 ++ (ccdq_t4_aaabaaab_anti0_cert_4 ++ (ccdq_t4_aaabaaab_anti0_cert_5 ++ (ccdq_t4_aaabaaab_anti0_cert_6 ++ (ccdq_t4_aaabaaab_anti0_cert_7)))))))) = true := by decide +kernel

end Verif.Cert
