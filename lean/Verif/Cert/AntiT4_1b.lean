import Verif.Ein.Ops2
import Verif.Gen.SiCcdqT4_1

/-! Written by `/verif/tools/gen.py`. Checks of einsum programs. -/

set_option maxRecDepth 100000

namespace Verif.Cert

open Verif.Ein Verif.Ein.N


open Verif.Gen

def ccdq_t4_aaabaaab_anti1_cert_0 : List Nat := [2283003892736064,
  2283003892736064,
  2283003892736064,
  2283003892736064,
  2283003892736064,
  2283003892736064,
  2283003892727874,
  2283003892727874,
  162160790664388672,
  162160790664388672,
  162160790663864512,
  162160790663864512,
  162160790664388672,
  162160790664388672,
  162160790664388672,
  162160790664388672,
  9226217990700933184,
  9226217990700933184,
  9226217990667386944,
  9226217990667386944,
  11531498049961205824,
  11531498049961205824,
  11531498049927659584,
  11531498049927659584,
  9226217990700933184,
  9226217990700933184,
  11531498049961205824,
  11531498049961205824,
  9226217990700933184,
  9226217990700933184,
  9226217990700933184,
  9226217990700933184,
  9226217990633824324,
  9226217990633824324,
  164412590478073920,
  164412590478073920,
  164412590477549760,
  164412590477549760,
  164412590478073920,
  164412590478073920,
  164412590477549760,
  164412590477549760,
  164412590478073920,
  164412590478073920,
  164412590477549760,
  164412590477549760,
  164412590478073920,
  164412590478073920,
  164412590478065730,
  164412590478065730,
  164412590477549760,
  164412590477549760,
  164412590477541570,
  164412590477541570,
  164412590478073920,
  164412590478073920,
  164412590478065730,
  164412590478065730,
  164412590477549760,
  164412590477549760,
  164412590477541570,
  164412590477541570,
  164412590478073920,
  164412590478073920,
  164412590478073920,
  164412590478073920,
  164412590478073920,
  164412590478073920,
  164412590478073920,
  164412590478073920,
  164412590478073920,
  164412590478073920,
  164412590478073920,
  164412590478073920,
  164412590478073920,
  164412590478073920,
  164412590478065730,
  164412590478065730,
  164412590478073920,
  164412590478073920,
  164412590478065730,
  164412590478065730,
  164412590478073920,
  164412590478073920,
  164412590478065730,
  164412590478065730,
  811818900033884659776,
  811818900033884659776,
  811818900031737700416,
  811818900031737700416,
  811818900033884659776,
  811818900033884659776,
  811818900033884135616,
  811818900033884135616,
  664280976241227210816,
  664280976241227210816,
  664280976241226686656,
  664280976241226686656,
  811818900033884659776,
  811818900033884659776,
  811818900033884659776,
  811818900033884659776,
  664280976241227210816,
  664280976241227210816,
  823350366879766814784,
  823350366879766814784,
  675812443087109365824,
  675812443087109365824,
  823350366879766814784,
  823350366879766814784,
  823350366879766814784,
  823350366879766814784,
  821045086820506542144,
  821045086820506542144,
  673507163027849093184,
  673507163027849093184,
  823350366879766814784,
  823350366879766814784,
  823350366879766806594,
  823350366879766806594,
  821045086820506542144,
  821045086820506542144,
  821045086820506533954,
  821045086820506533954,
  673507163027849093184,
  673507163027849093184,
  673507163027849084994,
  673507163027849084994,
  821045086820506542144,
  821045086820506542144,
  821045086820472995904,
  821045086820472995904,
  823350366879766814784,
  823350366879766814784,
  823350366879733268544,
  823350366879733268544,
  673507163027849093184,
  673507163027849093184,
  673507163027815546944,
  673507163027815546944,
  675812443087109365824,
  675812443087109365824,
  675812443087075819584,
  675812443087075819584,
  821045086820506542144,
  821045086820506542144,
  823350366879766814784,
  823350366879766814784,
  673507163027849093184,
  673507163027849093184,
  675812443087109365824,
  675812443087109365824,
  821045086820506542144,
  821045086820506542144,
  821045086820506542144,
  821045086820506542144,
  821045086820439433284,
  821045086820439433284,
  821045086820506542144,
  821045086820506542144,
  821045086820506017984,
  821045086820506017984,
  673507163027849093184,
  673507163027849093184,
  673507163027848569024,
  673507163027848569024,
  675812443087109365824,
  675812443087109365824,
  675812443087108841664,
  675812443087108841664,
  675812443087109365824,
  675812443087109365824,
  675812443087108841664,
  675812443087108841664,
  823350366879766814784,
  823350366879766814784,
  823350366879766290624,
  823350366879766290624,
  823350366879766814784,
  823350366879766814784,
  823350366879766290624,
  823350366879766290624,
  673507163027849093184,
  673507163027849093184,
  673507163027848569024,
  673507163027848569024,
  823350366879766814784,
  823350366879766814784,
  823350366879766290624,
  823350366879766290624,
  823350366879766814784,
  823350366879766814784,
  823350366879766806594,
  823350366879766806594,
  823350366879766290624,
  823350366879766290624,
  823350366879766282434,
  823350366879766282434,
  823350366879766814784,
  823350366879766814784,
  823350366879766806594,
  823350366879766806594,
  823350366879766290624,
  823350366879766290624,
  823350366879766282434,
  823350366879766282434,
  673507163027849093184,
  673507163027849093184,
  673507163027849084994,
  673507163027849084994,
  673507163027848569024,
  673507163027848569024,
  673507163027848560834,
  673507163027848560834,
  823350366879766814784,
  823350366879766814784,
  823350366879766806594,
  823350366879766806594,
  823350366879766290624,
  823350366879766290624,
  823350366879766282434,
  823350366879766282434,
  673507163027849093184,
  673507163027849093184,
  673507163027815546944,
  673507163027815546944,
  673507163027848569024,
  673507163027848569024,
  673507163027815022784,
  673507163027815022784,
  675812443087109365824,
  675812443087109365824,
  675812443087075819584,
  675812443087075819584,
  675812443087108841664,
  675812443087108841664,
  675812443087075295424,
  675812443087075295424,
  821045086820506542144,
  821045086820506542144,
  821045086820472995904,
  821045086820472995904,
  821045086820506017984,
  821045086820506017984,
  821045086820472471744,
  821045086820472471744,
  673507163027849093184,
  673507163027849093184,
  673507163027848569024,
  673507163027848569024,
  675812443087109365824,
  675812443087109365824,
  675812443087108841664,
  675812443087108841664,
  821045086820506542144,
  821045086820506542144,
  821045086820506017984,
  821045086820506017984,
  821045086820506542144,
  821045086820506542144,
  821045086820506017984,
  821045086820506017984,
  821045086820506542144,
  821045086820506542144,
  821045086820506017984,
  821045086820506017984,
  823350366879766814784,
  823350366879766814784,
  823350366879766290624,
  823350366879766290624,
  821045086820506542144,
  821045086820506542144,
  821045086820439433284,
  821045086820439433284,
  821045086820506017984,
  821045086820506017984,
  821045086820438909124,
  821045086820438909124,
  821045086820506542144,
  821045086820506542144,
  821045086820439433284,
  821045086820439433284,
  821045086820506017984,
  821045086820506017984,
  821045086820438909124,
  821045086820438909124,
  823350366879766814784,
  823350366879766814784,
  823350366879699705924,
  823350366879699705924,
  823350366879766290624,
  823350366879766290624,
  823350366879699181764,
  823350366879699181764,
  821045086820506542144,
  821045086820506542144,
  673507163027849093184,
  673507163027849093184,
  675812443087109365824,
  675812443087109365824,
  821045086820506542144,
  821045086820506542144,
  823350366879766814784,
  823350366879766814784,
  821045086820506542144,
  821045086820506542144,
  675812443087109365824,
  675812443087109365824,
  823350366879766814784,
  823350366879766814784,
  823350366879766814784,
  823350366879766814784,
  673507163027849093184,
  673507163027849093184,
  823350366879766814784,
  823350366879766814784,
  823350366879766814784,
  823350366879766814784,
  823350366879766814784,
  823350366879766814784,
  673507163027849093184,
  673507163027849093184,
  823350366879766814784,
  823350366879766814784,
  821045086820506542144,
  821045086820506542144,
  823350366879766814784,
  823350366879766814784,
  823350366879766806594,
  823350366879766806594,
  823350366879766814784,
  823350366879766814784,
  823350366879766806594,
  823350366879766806594,
  673507163027849093184,
  673507163027849093184,
  673507163027849084994,
  673507163027849084994,
  823350366879766814784,
  823350366879766814784,
  823350366879766806594,
  823350366879766806594,
  821045086820506542144,
  821045086820506542144,
  821045086820506533954,
  821045086820506533954,
  673507163027849093184,
  673507163027849093184,
  673507163027815546944,
  673507163027815546944,
  675812443087109365824,
  675812443087109365824,
  675812443087075819584,
  675812443087075819584,
  821045086820506542144,
  821045086820506542144,
  821045086820472995904,
  821045086820472995904,
  821045086820506542144,
  821045086820506542144,
  821045086820472995904,
  821045086820472995904,
  821045086820506542144,
  821045086820506542144,
  821045086820472995904,
  821045086820472995904,
  823350366879766814784,
  823350366879766814784,
  823350366879733268544,
  823350366879733268544,
  673507163027849093184,
  673507163027849093184,
  675812443087109365824,
  675812443087109365824,
  821045086820506542144,
  821045086820506542144,
  821045086820506542144,
  821045086820506542144,
  821045086820506542144,
  821045086820506542144,
  823350366879766814784,
  823350366879766814784,
  821045086820506542144,
  821045086820506542144,
  821045086820506542144,
  821045086820506542144,
  823350366879766814784,
  823350366879766814784,
  821045086820506542144,
  821045086820506542144,
  821045086820439433284,
  821045086820439433284,
  821045086820506542144,
  821045086820506542144,
  821045086820439433284,
  821045086820439433284,
  823350366879766814784,
  823350366879766814784,
  823350366879699705924,
  823350366879699705924]
def ccdq_t4_aaabaaab_anti1_cert_1 : List Nat := [821045086820506542144,
  821045086820506542144,
  821045086818359582784,
  821045086818359582784,
  823350366879766814784,
  823350366879766814784,
  823350366877619855424,
  823350366877619855424,
  823350366879766814784,
  823350366879766814784,
  823350366877619855424,
  823350366877619855424,
  675812443087109365824,
  675812443087109365824,
  675812443084962406464,
  675812443084962406464,
  823350366879766814784,
  823350366879766814784,
  823350366879766806594,
  823350366879766806594,
  823350366877619855424,
  823350366877619855424,
  823350366877619847234,
  823350366877619847234,
  823350366879766814784,
  823350366879766814784,
  823350366879766806594,
  823350366879766806594,
  823350366877619855424,
  823350366877619855424,
  823350366877619847234,
  823350366877619847234,
  675812443087109365824,
  675812443087109365824,
  675812443087109357634,
  675812443087109357634,
  675812443084962406464,
  675812443084962406464,
  675812443084962398274,
  675812443084962398274,
  821045086820506542144,
  821045086820506542144,
  821045086820506017984,
  821045086820506017984,
  673507163027849093184,
  673507163027849093184,
  673507163027848569024,
  673507163027848569024,
  823350366879766814784,
  823350366879766814784,
  823350366879766290624,
  823350366879766290624,
  675812443087109365824,
  675812443087109365824,
  675812443087108841664,
  675812443087108841664,
  823350366879766814784,
  823350366879766814784,
  823350366879766290624,
  823350366879766290624,
  823350366879766814784,
  823350366879766814784,
  823350366879766290624,
  823350366879766290624,
  675812443087109365824,
  675812443087109365824,
  675812443087108841664,
  675812443087108841664,
  821045086820506542144,
  821045086820506542144,
  821045086820506017984,
  821045086820506017984,
  673507163027849093184,
  673507163027849093184,
  673507163027848569024,
  673507163027848569024,
  823350366879766814784,
  823350366879766814784,
  823350366879766290624,
  823350366879766290624,
  821045086820506542144,
  821045086820506542144,
  821045086820506533954,
  821045086820506533954,
  821045086820506017984,
  821045086820506017984,
  821045086820506009794,
  821045086820506009794,
  673507163027849093184,
  673507163027849093184,
  673507163027849084994,
  673507163027849084994,
  673507163027848569024,
  673507163027848569024,
  673507163027848560834,
  673507163027848560834,
  823350366879766814784,
  823350366879766814784,
  823350366879766806594,
  823350366879766806594,
  823350366879766290624,
  823350366879766290624,
  823350366879766282434,
  823350366879766282434,
  821045086820506542144,
  821045086820506542144,
  821045086820506542144,
  821045086820506542144,
  673507163027849093184,
  673507163027849093184,
  823350366879766814784,
  823350366879766814784,
  675812443087109365824,
  675812443087109365824,
  823350366879766814784,
  823350366879766814784,
  823350366879766814784,
  823350366879766814784,
  675812443087109365824,
  675812443087109365824,
  823350366879766814784,
  823350366879766814784,
  823350366879766814784,
  823350366879766814784,
  675812443087109365824,
  675812443087109365824,
  821045086820506542144,
  821045086820506542144,
  673507163027849093184,
  673507163027849093184,
  823350366879766814784,
  823350366879766814784,
  823350366879766814784,
  823350366879766814784,
  823350366879766806594,
  823350366879766806594,
  823350366879766814784,
  823350366879766814784,
  823350366879766806594,
  823350366879766806594,
  675812443087109365824,
  675812443087109365824,
  675812443087109357634,
  675812443087109357634,
  821045086820506542144,
  821045086820506542144,
  821045086820506533954,
  821045086820506533954,
  673507163027849093184,
  673507163027849093184,
  673507163027849084994,
  673507163027849084994,
  823350366879766814784,
  823350366879766814784,
  823350366879766806594,
  823350366879766806594,
  11531498049961205824,
  11531498049961205824,
  11531498049961197634,
  11531498049961197634,
  11531498047814246464,
  11531498047814246464,
  11531498047814238274,
  11531498047814238274,
  9226217990700933184,
  9226217990700933184,
  9226217990700924994,
  9226217990700924994,
  11531498049961205824,
  11531498049961205824,
  11531498049894096964,
  11531498049894096964,
  11531498047814246464,
  11531498047814246464,
  11531498047747137604,
  11531498047747137604,
  9226217990700933184,
  9226217990700933184,
  9226217990633824324,
  9226217990633824324,
  11531498049961205824,
  11531498049961205824,
  11531498049927659584,
  11531498049927659584,
  11531498047814246464,
  11531498047814246464,
  11531498047780700224,
  11531498047780700224,
  9226217990700933184,
  9226217990700933184,
  9226217990667386944,
  9226217990667386944,
  11531498049961205824,
  11531498049961205824,
  11531498047814246464,
  11531498047814246464,
  9226217990700933184,
  9226217990700933184,
  11531498049961205824,
  11531498049961205824,
  11531498047814246464,
  11531498047814246464,
  9226217990700933184,
  9226217990700933184,
  11531498049961205824,
  11531498049961205824,
  11531498047814246464,
  11531498047814246464,
  9226217990700933184,
  9226217990700933184,
  164412590478073920,
  164412590478073920,
  164412590478065730,
  164412590478065730,
  164412588331114560,
  164412588331114560,
  164412588331106370,
  164412588331106370,
  164412590478073920,
  164412590478073920,
  164412588331114560,
  164412588331114560,
  164412590478073920,
  164412590478073920,
  164412588331114560,
  164412588331114560,
  164412590478073920,
  164412590478073920,
  164412590478065730,
  164412590478065730,
  164412588331114560,
  164412588331114560,
  164412588331106370,
  164412588331106370,
  164412590478073920,
  164412590478073920,
  164412590478065730,
  164412590478065730,
  164412590477549760,
  164412590477549760,
  164412590477541570,
  164412590477541570,
  164412590478073920,
  164412590478073920,
  164412590410965060,
  164412590410965060,
  164412588331114560,
  164412588331114560,
  164412588264005700,
  164412588264005700,
  164412590478073920,
  164412590478073920,
  164412590478065730,
  164412590478065730,
  164412588331114560,
  164412588331114560,
  164412588331106370,
  164412588331106370,
  164412590478073920,
  164412590478073920,
  164412590410965060,
  164412590410965060,
  164412590477549760,
  164412590477549760,
  164412590410440900,
  164412590410440900,
  164412590478073920,
  164412590478073920,
  164412590444527680,
  164412590444527680,
  164412588331114560,
  164412588331114560,
  164412588297568320,
  164412588297568320,
  164412590478073920,
  164412590478073920,
  164412590444527680,
  164412590444527680,
  164412590477549760,
  164412590477549760,
  164412590444003520,
  164412590444003520,
  164412590478073920,
  164412590478073920,
  164412590478065730,
  164412590478065730,
  164412586183106880,
  164412586183106880,
  164412586183098690,
  164412586183098690,
  164412590478073920,
  164412590478073920,
  164412586183106880,
  164412586183106880,
  164412590478073920,
  164412590478073920,
  164412586183106880,
  164412586183106880,
  164412590478073920,
  164412590478073920,
  164412590478065730,
  164412590478065730,
  164412586183106880,
  164412586183106880,
  164412586183098690,
  164412586183098690,
  164412590478073920,
  164412590478073920,
  164412590410965060,
  164412590410965060,
  164412586183106880,
  164412586183106880,
  164412586115998020,
  164412586115998020,
  164412590478073920,
  164412590478073920,
  164412590478065730,
  164412590478065730,
  164412586183106880,
  164412586183106880,
  164412586183098690,
  164412586183098690,
  164412590478073920,
  164412590478073920,
  164412590444527680,
  164412590444527680,
  164412586183106880,
  164412586183106880,
  164412586149560640,
  164412586149560640,
  164412590478073920,
  164412590478073920,
  164412590478065730,
  164412590478065730,
  164412590477549760,
  164412590477549760,
  164412590477541570,
  164412590477541570,
  164412590478073920,
  164412590478073920,
  164412590477549760,
  164412590477549760,
  164412590478073920,
  164412590478073920,
  164412590477549760,
  164412590477549760,
  164412590478073920,
  164412590478073920,
  164412590478065730,
  164412590478065730,
  164412590478073920,
  164412590478073920,
  164412590478073920,
  164412590478073920,
  164412590478065730,
  164412590478065730,
  164412590477549760,
  164412590477549760,
  164412590477541570,
  164412590477541570,
  164412590478073920,
  164412590478073920,
  164412590478065730,
  164412590478065730,
  164412590478073920,
  164412590478073920,
  164412590478065730,
  164412590478065730,
  164412590478073920,
  164412590478073920,
  164412590410965060,
  164412590410965060,
  164412590477549760,
  164412590477549760,
  164412590410440900,
  164412590410440900,
  164412590478073920,
  164412590478073920,
  164412590478065730,
  164412590478065730,
  164412590477549760,
  164412590477549760,
  164412590477541570,
  164412590477541570,
  164412590478073920,
  164412590478073920,
  164412590410965060,
  164412590410965060,
  164412590478073920,
  164412590478073920,
  164412590410965060,
  164412590410965060,
  164412590478073920,
  164412590478073920,
  164412590444527680,
  164412590444527680,
  164412590477549760,
  164412590477549760,
  164412590444003520,
  164412590444003520]
def ccdq_t4_aaabaaab_anti1_cert_2 : List Nat := [164412590478073920,
  164412590478073920,
  164412590444527680,
  164412590444527680,
  164412590478073920,
  164412590478073920,
  164412590444527680,
  164412590444527680,
  164412590478073920,
  164412590478073920,
  164412590478065730,
  164412590478065730,
  164412590477549760,
  164412590477549760,
  164412590477541570,
  164412590477541570,
  164412590478073920,
  164412590478073920,
  164412590477549760,
  164412590477549760,
  164412590478073920,
  164412590478073920,
  164412590478065730,
  164412590478065730,
  164412590477549760,
  164412590477549760,
  164412590477541570,
  164412590477541570,
  164412590478073920,
  164412590478073920,
  164412590410965060,
  164412590410965060,
  164412590477549760,
  164412590477549760,
  164412590410440900,
  164412590410440900,
  164412590478073920,
  164412590478073920,
  164412590444527680,
  164412590444527680,
  164412590477549760,
  164412590477549760,
  164412590444003520,
  164412590444003520,
  811818900033884659776,
  811818900033884659776,
  811818900031737700416,
  811818900031737700416,
  811818900033884659776,
  811818900033884659776,
  811818900033817550916,
  811818900033817550916,
  811818900031737700416,
  811818900031737700416,
  811818900031670591556,
  811818900031670591556,
  664280976241227210816,
  664280976241227210816,
  664280976241193664576,
  664280976241193664576,
  664280976241226686656,
  664280976241226686656,
  664280976241193140416,
  664280976241193140416,
  664280976241227210816,
  664280976241227210816,
  664280976241226686656,
  664280976241226686656,
  811818900033884659776,
  811818900033884659776,
  811818900033884135616,
  811818900033884135616,
  811818900033884659776,
  811818900033884659776,
  811818900033817550916,
  811818900033817550916,
  811818900033884135616,
  811818900033884135616,
  811818900033817026756,
  811818900033817026756,
  664280976241227210816,
  664280976241227210816,
  664280976241193664576,
  664280976241193664576,
  664280976241227210816,
  664280976241227210816,
  811818900033884659776,
  811818900033884659776,
  811818900033884659776,
  811818900033884659776,
  811818900033884659776,
  811818900033884659776,
  811818900033817550916,
  811818900033817550916,
  811818900033884659776,
  811818900033884659776,
  811818900033817550916,
  811818900033817550916,
  823350366879766814784,
  823350366879766814784,
  823350366879766806594,
  823350366879766806594,
  823350366877619855424,
  823350366877619855424,
  823350366877619847234,
  823350366877619847234,
  675812443087109365824,
  675812443087109365824,
  675812443087109357634,
  675812443087109357634,
  675812443084962406464,
  675812443084962406464,
  675812443084962398274,
  675812443084962398274,
  821045086820506542144,
  821045086820506542144,
  821045086820506533954,
  821045086820506533954,
  673507163027849093184,
  673507163027849093184,
  673507163027849084994,
  673507163027849084994,
  823350366879766814784,
  823350366879766814784,
  823350366879699705924,
  823350366879699705924,
  823350366877619855424,
  823350366877619855424,
  823350366877552746564,
  823350366877552746564,
  675812443087109365824,
  675812443087109365824,
  675812443087042256964,
  675812443087042256964,
  675812443084962406464,
  675812443084962406464,
  675812443084895297604,
  675812443084895297604,
  821045086820506542144,
  821045086820506542144,
  821045086820439433284,
  821045086820439433284,
  673507163027849093184,
  673507163027849093184,
  673507163027781984324,
  673507163027781984324,
  823350366879766814784,
  823350366879766814784,
  823350366879733268544,
  823350366879733268544,
  823350366877619855424,
  823350366877619855424,
  823350366877586309184,
  823350366877586309184,
  675812443087109365824,
  675812443087109365824,
  675812443087075819584,
  675812443087075819584,
  675812443084962406464,
  675812443084962406464,
  675812443084928860224,
  675812443084928860224,
  821045086820506542144,
  821045086820506542144,
  821045086820472995904,
  821045086820472995904,
  673507163027849093184,
  673507163027849093184,
  673507163027815546944,
  673507163027815546944,
  823350366879766814784,
  823350366879766814784,
  823350366877619855424,
  823350366877619855424,
  821045086820506542144,
  821045086820506542144,
  823350366879766814784,
  823350366879766814784,
  823350366877619855424,
  823350366877619855424,
  821045086820506542144,
  821045086820506542144,
  823350366879766814784,
  823350366879766814784,
  823350366877619855424,
  823350366877619855424,
  821045086820506542144,
  821045086820506542144,
  675812443087109365824,
  675812443087109365824,
  675812443087109357634,
  675812443087109357634,
  675812443084962406464,
  675812443084962406464,
  675812443084962398274,
  675812443084962398274,
  675812443087109365824,
  675812443087109365824,
  675812443084962406464,
  675812443084962406464,
  823350366879766814784,
  823350366879766814784,
  823350366877619855424,
  823350366877619855424,
  673507163027849093184,
  673507163027849093184,
  673507163025702133824,
  673507163025702133824,
  823350366879766814784,
  823350366879766814784,
  823350366879766806594,
  823350366879766806594,
  823350366877619855424,
  823350366877619855424,
  823350366877619847234,
  823350366877619847234,
  823350366879766814784,
  823350366879766814784,
  823350366879766806594,
  823350366879766806594,
  823350366877619855424,
  823350366877619855424,
  823350366877619847234,
  823350366877619847234,
  823350366879766814784,
  823350366879766814784,
  823350366879766806594,
  823350366879766806594,
  823350366879766290624,
  823350366879766290624,
  823350366879766282434,
  823350366879766282434,
  673507163027849093184,
  673507163027849093184,
  673507163027849084994,
  673507163027849084994,
  673507163027848569024,
  673507163027848569024,
  673507163027848560834,
  673507163027848560834,
  823350366879766814784,
  823350366879766814784,
  823350366879699705924,
  823350366879699705924,
  823350366877619855424,
  823350366877619855424,
  823350366877552746564,
  823350366877552746564,
  823350366879766814784,
  823350366879766814784,
  823350366879699705924,
  823350366879699705924,
  823350366877619855424,
  823350366877619855424,
  823350366877552746564,
  823350366877552746564,
  823350366879766814784,
  823350366879766814784,
  823350366879766806594,
  823350366879766806594,
  823350366877619855424,
  823350366877619855424,
  823350366877619847234,
  823350366877619847234,
  673507163027849093184,
  673507163027849093184,
  673507163027849084994,
  673507163027849084994,
  673507163025702133824,
  673507163025702133824,
  673507163025702125634,
  673507163025702125634,
  823350366879766814784,
  823350366879766814784,
  823350366879699705924,
  823350366879699705924,
  823350366879766290624,
  823350366879766290624,
  823350366879699181764,
  823350366879699181764,
  673507163027849093184,
  673507163027849093184,
  673507163027781984324,
  673507163027781984324,
  673507163027848569024,
  673507163027848569024,
  673507163027781460164,
  673507163027781460164,
  823350366879766814784,
  823350366879766814784,
  823350366879733268544,
  823350366879733268544,
  823350366877619855424,
  823350366877619855424,
  823350366877586309184,
  823350366877586309184,
  823350366879766814784,
  823350366879766814784,
  823350366879733268544,
  823350366879733268544,
  823350366877619855424,
  823350366877619855424,
  823350366877586309184,
  823350366877586309184,
  823350366879766814784,
  823350366879766814784,
  823350366879733268544,
  823350366879733268544,
  823350366879766290624,
  823350366879766290624,
  823350366879732744384,
  823350366879732744384,
  673507163027849093184,
  673507163027849093184,
  673507163027815546944,
  673507163027815546944,
  673507163027848569024,
  673507163027848569024,
  673507163027815022784,
  673507163027815022784,
  675812443087109365824,
  675812443087109365824,
  675812443087109357634,
  675812443087109357634,
  675812443084962406464,
  675812443084962406464,
  675812443084962398274,
  675812443084962398274,
  823350366879766814784,
  823350366879766814784,
  823350366879766806594,
  823350366879766806594,
  821045086818359582784,
  821045086818359582784,
  821045086818359574594,
  821045086818359574594,
  673507163027849093184,
  673507163027849093184,
  673507163027815546944,
  673507163027815546944,
  673507163025702133824,
  673507163025702133824,
  673507163025668587584,
  673507163025668587584,
  675812443087109365824,
  675812443087109365824,
  675812443087075819584,
  675812443087075819584,
  675812443084962406464,
  675812443084962406464,
  675812443084928860224,
  675812443084928860224,
  673507163027849093184,
  673507163027849093184,
  673507163027849084994,
  673507163027849084994,
  673507163027848569024,
  673507163027848569024,
  673507163027848560834,
  673507163027848560834,
  675812443087109365824,
  675812443087109365824,
  675812443087042256964,
  675812443087042256964,
  675812443084962406464,
  675812443084962406464,
  675812443084895297604,
  675812443084895297604,
  823350366879766814784,
  823350366879766814784,
  823350366879699705924,
  823350366879699705924,
  821045086818359582784,
  821045086818359582784,
  821045086818292473924,
  821045086818292473924,
  673507163027849093184,
  673507163027849093184,
  673507163027781984324,
  673507163027781984324,
  673507163027848569024,
  673507163027848569024,
  673507163027781460164,
  673507163027781460164,
  675812443087109365824,
  675812443087109365824,
  675812443087075819584,
  675812443087075819584,
  675812443084962406464,
  675812443084962406464,
  675812443084928860224,
  675812443084928860224,
  823350366879766814784,
  823350366879766814784,
  823350366879733268544,
  823350366879733268544,
  821045086818359582784,
  821045086818359582784,
  821045086818326036544,
  821045086818326036544]
def ccdq_t4_aaabaaab_anti1_cert_3 : List Nat := [673507163027849093184,
  673507163027849093184,
  673507163025702133824,
  673507163025702133824,
  675812443087109365824,
  675812443087109365824,
  675812443084962406464,
  675812443084962406464,
  821045086820506542144,
  821045086820506542144,
  821045086818359582784,
  821045086818359582784,
  823350366879766814784,
  823350366879766814784,
  823350366877619855424,
  823350366877619855424,
  673507163027849093184,
  673507163027849093184,
  673507163027815546944,
  673507163027815546944,
  673507163027848569024,
  673507163027848569024,
  673507163027815022784,
  673507163027815022784,
  821045086820506542144,
  821045086820506542144,
  821045086820506017984,
  821045086820506017984,
  823350366879766814784,
  823350366879766814784,
  823350366877619855424,
  823350366877619855424,
  823350366879766814784,
  823350366879766814784,
  823350366877619855424,
  823350366877619855424,
  821045086820506542144,
  821045086820506542144,
  821045086818359582784,
  821045086818359582784,
  821045086820506542144,
  821045086820506542144,
  821045086820439433284,
  821045086820439433284,
  821045086818359582784,
  821045086818359582784,
  821045086818292473924,
  821045086818292473924,
  823350366879766814784,
  823350366879766814784,
  823350366879699705924,
  823350366879699705924,
  823350366877619855424,
  823350366877619855424,
  823350366877552746564,
  823350366877552746564,
  821045086820506542144,
  821045086820506542144,
  821045086820506017984,
  821045086820506017984,
  821045086820506542144,
  821045086820506542144,
  821045086820506017984,
  821045086820506017984,
  821045086820506542144,
  821045086820506542144,
  821045086820439433284,
  821045086820439433284,
  821045086820506017984,
  821045086820506017984,
  821045086820438909124,
  821045086820438909124,
  823350366879766814784,
  823350366879766814784,
  823350366877619855424,
  823350366877619855424,
  823350366879766814784,
  823350366879766814784,
  823350366877619855424,
  823350366877619855424,
  821045086820506542144,
  821045086820506542144,
  821045086818359582784,
  821045086818359582784,
  821045086820506542144,
  821045086820506542144,
  821045086820506017984,
  821045086820506017984,
  821045086820506542144,
  821045086820506542144,
  821045086820506017984,
  821045086820506017984,
  823350366879766814784,
  823350366879766814784,
  823350366877619855424,
  823350366877619855424,
  823350366879766814784,
  823350366879766814784,
  823350366877619855424,
  823350366877619855424,
  821045086820506542144,
  821045086820506542144,
  821045086818359582784,
  821045086818359582784,
  821045086820506542144,
  821045086820506542144,
  821045086820506017984,
  821045086820506017984,
  821045086820506542144,
  821045086820506542144,
  821045086820506017984,
  821045086820506017984,
  675812443087109365824,
  675812443087109365824,
  675812443087109357634,
  675812443087109357634,
  675812443087109365824,
  675812443087109365824,
  823350366879766814784,
  823350366879766814784,
  673507163027849093184,
  673507163027849093184,
  823350366879766814784,
  823350366879766814784,
  823350366879766806594,
  823350366879766806594,
  821045086820506542144,
  821045086820506542144,
  821045086820506533954,
  821045086820506533954,
  823350366879766814784,
  823350366879766814784,
  823350366879699705924,
  823350366879699705924,
  821045086820506542144,
  821045086820506542144,
  821045086820439433284,
  821045086820439433284,
  823350366879766814784,
  823350366879766814784,
  823350366879766806594,
  823350366879766806594,
  673507163027849093184,
  673507163027849093184,
  673507163027849084994,
  673507163027849084994,
  823350366879766814784,
  823350366879766814784,
  823350366879733268544,
  823350366879733268544,
  821045086820506542144,
  821045086820506542144,
  821045086820472995904,
  821045086820472995904,
  675812443087109365824,
  675812443087109365824,
  675812443087109357634,
  675812443087109357634,
  821045086820506542144,
  821045086820506542144,
  821045086820506533954,
  821045086820506533954,
  673507163027849093184,
  673507163027849093184,
  673507163027815546944,
  673507163027815546944,
  675812443087109365824,
  675812443087109365824,
  675812443087075819584,
  675812443087075819584,
  675812443087109365824,
  675812443087109365824,
  675812443087042256964,
  675812443087042256964,
  821045086820506542144,
  821045086820506542144,
  821045086820439433284,
  821045086820439433284,
  675812443087109365824,
  675812443087109365824,
  675812443087075819584,
  675812443087075819584,
  821045086820506542144,
  821045086820506542144,
  821045086820472995904,
  821045086820472995904,
  673507163027849093184,
  673507163027849093184,
  675812443087109365824,
  675812443087109365824,
  821045086820506542144,
  821045086820506542144,
  823350366879766814784,
  823350366879766814784,
  823350366879766814784,
  823350366879766814784,
  823350366879766814784,
  823350366879766814784,
  821045086820506542144,
  821045086820506542144,
  821045086820506542144,
  821045086820506542144,
  821045086820439433284,
  821045086820439433284,
  823350366879766814784,
  823350366879766814784,
  823350366879699705924,
  823350366879699705924,
  823350366879766814784,
  823350366879766814784,
  823350366879766814784,
  823350366879766814784,
  821045086820506542144,
  821045086820506542144,
  823350366879766814784,
  823350366879766814784,
  823350366879766814784,
  823350366879766814784,
  821045086820506542144,
  821045086820506542144,
  823350366879766814784,
  823350366879766814784,
  823350366879766806594,
  823350366879766806594,
  673507163027849093184,
  673507163027849093184,
  673507163027849084994,
  673507163027849084994,
  823350366879766814784,
  823350366879766814784,
  823350366879699705924,
  823350366879699705924,
  673507163027849093184,
  673507163027849093184,
  673507163027781984324,
  673507163027781984324,
  823350366879766814784,
  823350366879766814784,
  823350366879733268544,
  823350366879733268544,
  673507163027849093184,
  673507163027849093184,
  673507163027815546944,
  673507163027815546944,
  673507163027849093184,
  673507163027849093184,
  673507163027849084994,
  673507163027849084994,
  673507163027849093184,
  673507163027849093184,
  673507163027781984324,
  673507163027781984324,
  673507163027849093184,
  673507163027849093184,
  673507163027815546944,
  673507163027815546944,
  821045086820506542144,
  821045086820506542144,
  821045086820506542144,
  821045086820506542144,
  821045086820506542144,
  821045086820506542144,
  821045086820506542144,
  821045086820506542144,
  821045086820439433284,
  821045086820439433284,
  821045086820506542144,
  821045086820506542144,
  821045086820506542144,
  821045086820506542144,
  821045086820506542144,
  821045086820506542144,
  821045086820506542144,
  821045086820506542144,
  2283003858649284,
  2283003825111234,
  2283003858649284,
  2283003825111234,
  2283003858649284,
  2283003825111234,
  2283003858665664,
  2283003858665664,
  162160790630301892,
  162160790596763842,
  162160790630826052,
  162160790597288002,
  162160790630301892,
  162160790596763842,
  162160790630301892,
  162160790596763842,
  9226217990666846404,
  9226217990633308354,
  9226217990633300164,
  9226217990633300164,
  11531498049927119044,
  11531498049893580994,
  11531498049893572804,
  11531498049893572804,
  9226217990666846404,
  9226217990633308354,
  11531498049927119044,
  11531498049893580994,
  9226217990666846404,
  9226217990633308354,
  9226217990666846404,
  9226217990633308354,
  9226217990700400834,
  9226217990700400834,
  164412590443987140,
  164412590410449090,
  164412590444511300,
  164412590410973250,
  164412590443987140,
  164412590410449090,
  164412590444511300,
  164412590410973250,
  164412590443987140,
  164412590410449090,
  164412590444511300,
  164412590410973250,
  164412590443987140,
  164412590410449090,
  164412590444003520,
  164412590444003520,
  164412590444511300,
  164412590410973250,
  164412590444527680,
  164412590444527680,
  164412590443987140,
  164412590410449090,
  164412590444003520,
  164412590444003520,
  164412590444511300,
  164412590410973250,
  164412590444527680,
  164412590444527680,
  164412590443987140,
  164412590410449090,
  164412590443987140,
  164412590410449090,
  164412590443987140,
  164412590410449090,
  164412590443987140,
  164412590410449090,
  164412590443987140,
  164412590410449090,
  164412590443987140,
  164412590410449090,
  164412590443987140,
  164412590410449090,
  164412590444003520,
  164412590444003520,
  164412590443987140,
  164412590410449090,
  164412590444003520,
  164412590444003520,
  164412590443987140,
  164412590410449090,
  164412590444003520,
  164412590444003520,
  811818900033850572996,
  811818900033817034946,
  811818900029556654276,
  811818900031669551426,
  811818900033850572996,
  811818900033817034946,
  811818900033851097156,
  811818900033817559106,
  664280976241193124036,
  664280976241159585986,
  664280976241193648196,
  664280976241160110146,
  811818900033850572996,
  811818900033817034946,
  811818900033850572996,
  811818900033817034946,
  664280976241193124036,
  664280976241159585986,
  823350366879732728004,
  823350366879699189954,
  675812443087075279044,
  675812443087041740994,
  823350366879732728004,
  823350366879699189954,
  823350366879732728004,
  823350366879699189954,
  821045086820472455364,
  821045086820438917314,
  673507163027815006404,
  673507163027781468354,
  823350366879732728004,
  823350366879699189954,
  823350366879732744384,
  823350366879732744384,
  821045086820472455364,
  821045086820438917314,
  821045086820472471744,
  821045086820472471744,
  673507163027815006404,
  673507163027781468354]
def ccdq_t4_aaabaaab_anti1_cert_4 : List Nat := [673507163027815022784,
  673507163027815022784,
  821045086820472455364,
  821045086820438917314,
  821045086820438909124,
  821045086820438909124,
  823350366879732728004,
  823350366879699189954,
  823350366879699181764,
  823350366879699181764,
  673507163027815006404,
  673507163027781468354,
  673507163027781460164,
  673507163027781460164,
  675812443087075279044,
  675812443087041740994,
  675812443087041732804,
  675812443087041732804,
  821045086820472455364,
  821045086820438917314,
  823350366879732728004,
  823350366879699189954,
  673507163027815006404,
  673507163027781468354,
  675812443087075279044,
  675812443087041740994,
  821045086820472455364,
  821045086820438917314,
  821045086820472455364,
  821045086820438917314,
  821045086820506009794,
  821045086820506009794,
  821045086820472455364,
  821045086820438917314,
  821045086820472979524,
  821045086820439441474,
  673507163027815006404,
  673507163027781468354,
  673507163027815530564,
  673507163027781992514,
  675812443087075279044,
  675812443087041740994,
  675812443087075803204,
  675812443087042265154,
  675812443087075279044,
  675812443087041740994,
  675812443087075803204,
  675812443087042265154,
  823350366879732728004,
  823350366879699189954,
  823350366879733252164,
  823350366879699714114,
  823350366879732728004,
  823350366879699189954,
  823350366879733252164,
  823350366879699714114,
  673507163027815006404,
  673507163027781468354,
  673507163027815530564,
  673507163027781992514,
  823350366879732728004,
  823350366879699189954,
  823350366879733252164,
  823350366879699714114,
  823350366879732728004,
  823350366879699189954,
  823350366879732744384,
  823350366879732744384,
  823350366879733252164,
  823350366879699714114,
  823350366879733268544,
  823350366879733268544,
  823350366879732728004,
  823350366879699189954,
  823350366879732744384,
  823350366879732744384,
  823350366879733252164,
  823350366879699714114,
  823350366879733268544,
  823350366879733268544,
  673507163027815006404,
  673507163027781468354,
  673507163027815022784,
  673507163027815022784,
  673507163027815530564,
  673507163027781992514,
  673507163027815546944,
  673507163027815546944,
  823350366879732728004,
  823350366879699189954,
  823350366879732744384,
  823350366879732744384,
  823350366879733252164,
  823350366879699714114,
  823350366879733268544,
  823350366879733268544,
  673507163027815006404,
  673507163027781468354,
  673507163027781460164,
  673507163027781460164,
  673507163027815530564,
  673507163027781992514,
  673507163027781984324,
  673507163027781984324,
  675812443087075279044,
  675812443087041740994,
  675812443087041732804,
  675812443087041732804,
  675812443087075803204,
  675812443087042265154,
  675812443087042256964,
  675812443087042256964,
  821045086820472455364,
  821045086820438917314,
  821045086820438909124,
  821045086820438909124,
  821045086820472979524,
  821045086820439441474,
  821045086820439433284,
  821045086820439433284,
  673507163027815006404,
  673507163027781468354,
  673507163027815530564,
  673507163027781992514,
  675812443087075279044,
  675812443087041740994,
  675812443087075803204,
  675812443087042265154,
  821045086820472455364,
  821045086820438917314,
  821045086820472979524,
  821045086820439441474,
  821045086820472455364,
  821045086820438917314,
  821045086820472979524,
  821045086820439441474,
  821045086820472455364,
  821045086820438917314,
  821045086820472979524,
  821045086820439441474,
  823350366879732728004,
  823350366879699189954,
  823350366879733252164,
  823350366879699714114,
  821045086820472455364,
  821045086820438917314,
  821045086820506009794,
  821045086820506009794,
  821045086820472979524,
  821045086820439441474,
  821045086820506533954,
  821045086820506533954,
  821045086820472455364,
  821045086820438917314,
  821045086820506009794,
  821045086820506009794,
  821045086820472979524,
  821045086820439441474,
  821045086820506533954,
  821045086820506533954,
  823350366879732728004,
  823350366879699189954,
  823350366879766282434,
  823350366879766282434,
  823350366879733252164,
  823350366879699714114,
  823350366879766806594,
  823350366879766806594,
  821045086820472455364,
  821045086820438917314,
  673507163027815006404,
  673507163027781468354,
  675812443087075279044,
  675812443087041740994,
  821045086820472455364,
  821045086820438917314,
  823350366879732728004,
  823350366879699189954,
  821045086820472455364,
  821045086820438917314,
  675812443087075279044,
  675812443087041740994,
  823350366879732728004,
  823350366879699189954,
  823350366879732728004,
  823350366879699189954,
  673507163027815006404,
  673507163027781468354,
  823350366879732728004,
  823350366879699189954,
  823350366879732728004,
  823350366879699189954,
  823350366879732728004,
  823350366879699189954,
  673507163027815006404,
  673507163027781468354,
  823350366879732728004,
  823350366879699189954,
  821045086820472455364,
  821045086820438917314,
  823350366879732728004,
  823350366879699189954,
  823350366879732744384,
  823350366879732744384,
  823350366879732728004,
  823350366879699189954,
  823350366879732744384,
  823350366879732744384,
  673507163027815006404,
  673507163027781468354,
  673507163027815022784,
  673507163027815022784,
  823350366879732728004,
  823350366879699189954,
  823350366879732744384,
  823350366879732744384,
  821045086820472455364,
  821045086820438917314,
  821045086820472471744,
  821045086820472471744,
  673507163027815006404,
  673507163027781468354,
  673507163027781460164,
  673507163027781460164,
  675812443087075279044,
  675812443087041740994,
  675812443087041732804,
  675812443087041732804,
  821045086820472455364,
  821045086820438917314,
  821045086820438909124,
  821045086820438909124,
  821045086820472455364,
  821045086820438917314,
  821045086820438909124,
  821045086820438909124,
  821045086820472455364,
  821045086820438917314,
  821045086820438909124,
  821045086820438909124,
  823350366879732728004,
  823350366879699189954,
  823350366879699181764,
  823350366879699181764,
  673507163027815006404,
  673507163027781468354,
  675812443087075279044,
  675812443087041740994,
  821045086820472455364,
  821045086820438917314,
  821045086820472455364,
  821045086820438917314,
  821045086820472455364,
  821045086820438917314,
  823350366879732728004,
  823350366879699189954,
  821045086820472455364,
  821045086820438917314,
  821045086820472455364,
  821045086820438917314,
  823350366879732728004,
  823350366879699189954,
  821045086820472455364,
  821045086820438917314,
  821045086820506009794,
  821045086820506009794,
  821045086820472455364,
  821045086820438917314,
  821045086820506009794,
  821045086820506009794,
  823350366879732728004,
  823350366879699189954,
  823350366879766282434,
  823350366879766282434,
  821045086820472455364,
  821045086820438917314,
  821045086816178536644,
  821045086818291433794,
  823350366879732728004,
  823350366879699189954,
  823350366875438809284,
  823350366877551706434,
  823350366879732728004,
  823350366879699189954,
  823350366875438809284,
  823350366877551706434,
  675812443087075279044,
  675812443087041740994,
  675812443082781360324,
  675812443084894257474,
  823350366879732728004,
  823350366879699189954,
  823350366879732744384,
  823350366879732744384,
  823350366875438809284,
  823350366877551706434,
  823350366875438825664,
  823350366877585260864,
  823350366879732728004,
  823350366879699189954,
  823350366879732744384,
  823350366879732744384,
  823350366875438809284,
  823350366877551706434,
  823350366875438825664,
  823350366877585260864,
  675812443087075279044,
  675812443087041740994,
  675812443087075295424,
  675812443087075295424,
  675812443082781360324,
  675812443084894257474,
  675812443082781376704,
  675812443084927811904,
  821045086820472455364,
  821045086820438917314,
  821045086820472979524,
  821045086820439441474,
  673507163027815006404,
  673507163027781468354,
  673507163027815530564,
  673507163027781992514,
  823350366879732728004,
  823350366879699189954,
  823350366879733252164,
  823350366879699714114,
  675812443087075279044,
  675812443087041740994,
  675812443087075803204,
  675812443087042265154,
  823350366879732728004,
  823350366879699189954,
  823350366879733252164,
  823350366879699714114,
  823350366879732728004,
  823350366879699189954,
  823350366879733252164,
  823350366879699714114,
  675812443087075279044,
  675812443087041740994,
  675812443087075803204,
  675812443087042265154,
  821045086820472455364,
  821045086820438917314,
  821045086820472979524,
  821045086820439441474,
  673507163027815006404,
  673507163027781468354,
  673507163027815530564,
  673507163027781992514,
  823350366879732728004,
  823350366879699189954,
  823350366879733252164,
  823350366879699714114,
  821045086820472455364,
  821045086820438917314,
  821045086820472471744,
  821045086820472471744,
  821045086820472979524,
  821045086820439441474,
  821045086820472995904,
  821045086820472995904,
  673507163027815006404,
  673507163027781468354,
  673507163027815022784,
  673507163027815022784,
  673507163027815530564,
  673507163027781992514,
  673507163027815546944,
  673507163027815546944,
  823350366879732728004,
  823350366879699189954,
  823350366879732744384,
  823350366879732744384,
  823350366879733252164,
  823350366879699714114,
  823350366879733268544,
  823350366879733268544,
  821045086820472455364,
  821045086820438917314,
  821045086820472455364,
  821045086820438917314,
  673507163027815006404,
  673507163027781468354,
  823350366879732728004,
  823350366879699189954,
  675812443087075279044,
  675812443087041740994,
  823350366879732728004,
  823350366879699189954,
  823350366879732728004,
  823350366879699189954,
  675812443087075279044,
  675812443087041740994,
  823350366879732728004,
  823350366879699189954,
  823350366879732728004,
  823350366879699189954,
  675812443087075279044,
  675812443087041740994]
def ccdq_t4_aaabaaab_anti1_cert_5 : List Nat := [821045086820472455364,
  821045086820438917314,
  673507163027815006404,
  673507163027781468354,
  823350366879732728004,
  823350366879699189954,
  823350366879732728004,
  823350366879699189954,
  823350366879732744384,
  823350366879732744384,
  823350366879732728004,
  823350366879699189954,
  823350366879732744384,
  823350366879732744384,
  675812443087075279044,
  675812443087041740994,
  675812443087075295424,
  675812443087075295424,
  821045086820472455364,
  821045086820438917314,
  821045086820472471744,
  821045086820472471744,
  673507163027815006404,
  673507163027781468354,
  673507163027815022784,
  673507163027815022784,
  823350366879732728004,
  823350366879699189954,
  823350366879732744384,
  823350366879732744384,
  11531498049927119044,
  11531498049893580994,
  11531498049927135424,
  11531498049927135424,
  11531498045633200324,
  11531498047746097474,
  11531498045633216704,
  11531498047779651904,
  9226217990666846404,
  9226217990633308354,
  9226217990666862784,
  9226217990666862784,
  11531498049927119044,
  11531498049893580994,
  11531498049960673474,
  11531498049960673474,
  11531498045633200324,
  11531498047746097474,
  11531498045666754754,
  11531498047813189954,
  9226217990666846404,
  9226217990633308354,
  9226217990700400834,
  9226217990700400834,
  11531498049927119044,
  11531498049893580994,
  11531498049893572804,
  11531498049893572804,
  11531498045633200324,
  11531498047746097474,
  11531498045599654084,
  11531498047746089284,
  9226217990666846404,
  9226217990633308354,
  9226217990633300164,
  9226217990633300164,
  11531498049927119044,
  11531498049893580994,
  11531498045633200324,
  11531498047746097474,
  9226217990666846404,
  9226217990633308354,
  11531498049927119044,
  11531498049893580994,
  11531498045633200324,
  11531498047746097474,
  9226217990666846404,
  9226217990633308354,
  11531498049927119044,
  11531498049893580994,
  11531498045633200324,
  11531498047746097474,
  9226217990666846404,
  9226217990633308354,
  164412590443987140,
  164412590410449090,
  164412590444003520,
  164412590444003520,
  164412586150068420,
  164412588262965570,
  164412586150084800,
  164412588296520000,
  164412590443987140,
  164412590410449090,
  164412586150068420,
  164412588262965570,
  164412590443987140,
  164412590410449090,
  164412586150068420,
  164412588262965570,
  164412590443987140,
  164412590410449090,
  164412590444003520,
  164412590444003520,
  164412586150068420,
  164412588262965570,
  164412586150084800,
  164412588296520000,
  164412590443987140,
  164412590410449090,
  164412590444003520,
  164412590444003520,
  164412590444511300,
  164412590410973250,
  164412590444527680,
  164412590444527680,
  164412590443987140,
  164412590410449090,
  164412590477541570,
  164412590477541570,
  164412586150068420,
  164412588262965570,
  164412586183622850,
  164412588330058050,
  164412590443987140,
  164412590410449090,
  164412590444003520,
  164412590444003520,
  164412586150068420,
  164412588262965570,
  164412586150084800,
  164412588296520000,
  164412590443987140,
  164412590410449090,
  164412590477541570,
  164412590477541570,
  164412590444511300,
  164412590410973250,
  164412590478065730,
  164412590478065730,
  164412590443987140,
  164412590410449090,
  164412590410440900,
  164412590410440900,
  164412586150068420,
  164412588262965570,
  164412586116522180,
  164412588262957380,
  164412590443987140,
  164412590410449090,
  164412590410440900,
  164412590410440900,
  164412590444511300,
  164412590410973250,
  164412590410965060,
  164412590410965060,
  164412590443987140,
  164412590410449090,
  164412590444003520,
  164412590444003520,
  164412588296503620,
  164412586116530370,
  164412588296520000,
  164412586150084800,
  164412590443987140,
  164412590410449090,
  164412588296503620,
  164412586116530370,
  164412590443987140,
  164412590410449090,
  164412588296503620,
  164412586116530370,
  164412590443987140,
  164412590410449090,
  164412590444003520,
  164412590444003520,
  164412588296503620,
  164412586116530370,
  164412588296520000,
  164412586150084800,
  164412590443987140,
  164412590410449090,
  164412590477541570,
  164412590477541570,
  164412588296503620,
  164412586116530370,
  164412588330058050,
  164412586183622850,
  164412590443987140,
  164412590410449090,
  164412590444003520,
  164412590444003520,
  164412588296503620,
  164412586116530370,
  164412588296520000,
  164412586150084800,
  164412590443987140,
  164412590410449090,
  164412590410440900,
  164412590410440900,
  164412588296503620,
  164412586116530370,
  164412588262957380,
  164412586116522180,
  164412590443987140,
  164412590410449090,
  164412590444003520,
  164412590444003520,
  164412590444511300,
  164412590410973250,
  164412590444527680,
  164412590444527680,
  164412590443987140,
  164412590410449090,
  164412590444511300,
  164412590410973250,
  164412590443987140,
  164412590410449090,
  164412590444511300,
  164412590410973250,
  164412590443987140,
  164412590410449090,
  164412590444003520,
  164412590444003520,
  164412590443987140,
  164412590410449090,
  164412590443987140,
  164412590410449090,
  164412590444003520,
  164412590444003520,
  164412590444511300,
  164412590410973250,
  164412590444527680,
  164412590444527680,
  164412590443987140,
  164412590410449090,
  164412590444003520,
  164412590444003520,
  164412590443987140,
  164412590410449090,
  164412590444003520,
  164412590444003520,
  164412590443987140,
  164412590410449090,
  164412590477541570,
  164412590477541570,
  164412590444511300,
  164412590410973250,
  164412590478065730,
  164412590478065730,
  164412590443987140,
  164412590410449090,
  164412590444003520,
  164412590444003520,
  164412590444511300,
  164412590410973250,
  164412590444527680,
  164412590444527680,
  164412590443987140,
  164412590410449090,
  164412590477541570,
  164412590477541570,
  164412590443987140,
  164412590410449090,
  164412590477541570,
  164412590477541570,
  164412590443987140,
  164412590410449090,
  164412590410440900,
  164412590410440900,
  164412590444511300,
  164412590410973250,
  164412590410965060,
  164412590410965060,
  164412590443987140,
  164412590410449090,
  164412590410440900,
  164412590410440900,
  164412590443987140,
  164412590410449090,
  164412590410440900,
  164412590410440900,
  164412590443987140,
  164412590410449090,
  164412590444003520,
  164412590444003520,
  164412590444511300,
  164412590410973250,
  164412590444527680,
  164412590444527680,
  164412590443987140,
  164412590410449090,
  164412590444511300,
  164412590410973250,
  164412590443987140,
  164412590410449090,
  164412590444003520,
  164412590444003520,
  164412590444511300,
  164412590410973250,
  164412590444527680,
  164412590444527680,
  164412590443987140,
  164412590410449090,
  164412590477541570,
  164412590477541570,
  164412590444511300,
  164412590410973250,
  164412590478065730,
  164412590478065730,
  164412590443987140,
  164412590410449090,
  164412590410440900,
  164412590410440900,
  164412590444511300,
  164412590410973250,
  164412590410965060,
  164412590410965060,
  811818900033850572996,
  811818900033817034946,
  811818900029556654276,
  811818900031669551426,
  811818900033850572996,
  811818900033817034946,
  811818900033884127426,
  811818900033884127426,
  811818900029556654276,
  811818900031669551426,
  811818900029590208706,
  811818900031736643906,
  664280976241193124036,
  664280976241159585986,
  664280976241159577796,
  664280976241159577796,
  664280976241193648196,
  664280976241160110146,
  664280976241160101956,
  664280976241160101956,
  664280976241193124036,
  664280976241159585986,
  664280976241193648196,
  664280976241160110146,
  811818900033850572996,
  811818900033817034946,
  811818900033851097156,
  811818900033817559106,
  811818900033850572996,
  811818900033817034946,
  811818900033884127426,
  811818900033884127426,
  811818900033851097156,
  811818900033817559106,
  811818900033884651586,
  811818900033884651586,
  664280976241193124036,
  664280976241159585986,
  664280976241159577796,
  664280976241159577796,
  664280976241193124036,
  664280976241159585986,
  811818900033850572996,
  811818900033817034946,
  811818900033850572996,
  811818900033817034946,
  811818900033850572996,
  811818900033817034946,
  811818900033884127426,
  811818900033884127426,
  811818900033850572996,
  811818900033817034946,
  811818900033884127426,
  811818900033884127426,
  823350366879732728004,
  823350366879699189954,
  823350366879732744384,
  823350366879732744384,
  823350366875438809284,
  823350366877551706434,
  823350366875438825664,
  823350366877585260864,
  675812443087075279044,
  675812443087041740994,
  675812443087075295424,
  675812443087075295424,
  675812443082781360324,
  675812443084894257474,
  675812443082781376704,
  675812443084927811904,
  821045086820472455364,
  821045086820438917314,
  821045086820472471744,
  821045086820472471744,
  673507163027815006404,
  673507163027781468354,
  673507163027815022784,
  673507163027815022784,
  823350366879732728004,
  823350366879699189954,
  823350366879766282434,
  823350366879766282434]
def ccdq_t4_aaabaaab_anti1_cert_6 : List Nat := [823350366875438809284,
  823350366877551706434,
  823350366875472363714,
  823350366877618798914,
  675812443087075279044,
  675812443087041740994,
  675812443087108833474,
  675812443087108833474,
  675812443082781360324,
  675812443084894257474,
  675812443082814914754,
  675812443084961349954,
  821045086820472455364,
  821045086820438917314,
  821045086820506009794,
  821045086820506009794,
  673507163027815006404,
  673507163027781468354,
  673507163027848560834,
  673507163027848560834,
  823350366879732728004,
  823350366879699189954,
  823350366879699181764,
  823350366879699181764,
  823350366875438809284,
  823350366877551706434,
  823350366875405263044,
  823350366877551698244,
  675812443087075279044,
  675812443087041740994,
  675812443087041732804,
  675812443087041732804,
  675812443082781360324,
  675812443084894257474,
  675812443082747814084,
  675812443084894249284,
  821045086820472455364,
  821045086820438917314,
  821045086820438909124,
  821045086820438909124,
  673507163027815006404,
  673507163027781468354,
  673507163027781460164,
  673507163027781460164,
  823350366879732728004,
  823350366879699189954,
  823350366875438809284,
  823350366877551706434,
  821045086820472455364,
  821045086820438917314,
  823350366879732728004,
  823350366879699189954,
  823350366875438809284,
  823350366877551706434,
  821045086820472455364,
  821045086820438917314,
  823350366879732728004,
  823350366879699189954,
  823350366875438809284,
  823350366877551706434,
  821045086820472455364,
  821045086820438917314,
  675812443087075279044,
  675812443087041740994,
  675812443087075295424,
  675812443087075295424,
  675812443082781360324,
  675812443084894257474,
  675812443082781376704,
  675812443084927811904,
  675812443087075279044,
  675812443087041740994,
  675812443082781360324,
  675812443084894257474,
  675812443087075279044,
  675812443087041740994,
  823350366875438809284,
  823350366877551706434,
  673507163027815006404,
  673507163027781468354,
  673507163023521087684,
  673507163025633984834,
  823350366879732728004,
  823350366879699189954,
  823350366879732744384,
  823350366879732744384,
  823350366875438809284,
  823350366877551706434,
  823350366875438825664,
  823350366877585260864,
  675812443087075279044,
  675812443087041740994,
  675812443087075295424,
  675812443087075295424,
  821045086816178536644,
  821045086818291433794,
  821045086816178553024,
  821045086818324988224,
  823350366879732728004,
  823350366879699189954,
  823350366879732744384,
  823350366879732744384,
  823350366879733252164,
  823350366879699714114,
  823350366879733268544,
  823350366879733268544,
  673507163027815006404,
  673507163027781468354,
  673507163027815022784,
  673507163027815022784,
  673507163027815530564,
  673507163027781992514,
  673507163027815546944,
  673507163027815546944,
  823350366879732728004,
  823350366879699189954,
  823350366879766282434,
  823350366879766282434,
  823350366875438809284,
  823350366877551706434,
  823350366875472363714,
  823350366877618798914,
  675812443087075279044,
  675812443087041740994,
  675812443087108833474,
  675812443087108833474,
  821045086816178536644,
  821045086818291433794,
  821045086816212091074,
  821045086818358526274,
  675812443087075279044,
  675812443087041740994,
  675812443087075295424,
  675812443087075295424,
  823350366875438809284,
  823350366877551706434,
  823350366875438825664,
  823350366877585260864,
  673507163027815006404,
  673507163027781468354,
  673507163027815022784,
  673507163027815022784,
  673507163023521087684,
  673507163025633984834,
  673507163023521104064,
  673507163025667539264,
  823350366879732728004,
  823350366879699189954,
  823350366879766282434,
  823350366879766282434,
  823350366879733252164,
  823350366879699714114,
  823350366879766806594,
  823350366879766806594,
  673507163027815006404,
  673507163027781468354,
  673507163027848560834,
  673507163027848560834,
  673507163027815530564,
  673507163027781992514,
  673507163027849084994,
  673507163027849084994,
  823350366879732728004,
  823350366879699189954,
  823350366879699181764,
  823350366879699181764,
  823350366875438809284,
  823350366877551706434,
  823350366875405263044,
  823350366877551698244,
  675812443087075279044,
  675812443087041740994,
  675812443087041732804,
  675812443087041732804,
  821045086816178536644,
  821045086818291433794,
  821045086816144990404,
  821045086818291425604,
  823350366879732728004,
  823350366879699189954,
  823350366879699181764,
  823350366879699181764,
  823350366879733252164,
  823350366879699714114,
  823350366879699705924,
  823350366879699705924,
  673507163027815006404,
  673507163027781468354,
  673507163027781460164,
  673507163027781460164,
  673507163027815530564,
  673507163027781992514,
  673507163027781984324,
  673507163027781984324,
  675812443087075279044,
  675812443087041740994,
  675812443087075295424,
  675812443087075295424,
  675812443082781360324,
  675812443084894257474,
  675812443082781376704,
  675812443084927811904,
  675812443087075279044,
  675812443087041740994,
  675812443087075295424,
  675812443087075295424,
  821045086816178536644,
  821045086818291433794,
  821045086816178553024,
  821045086818324988224,
  673507163027815006404,
  673507163027781468354,
  673507163027781460164,
  673507163027781460164,
  673507163023521087684,
  673507163025633984834,
  673507163023487541444,
  673507163025633976644,
  675812443087075279044,
  675812443087041740994,
  675812443087041732804,
  675812443087041732804,
  675812443082781360324,
  675812443084894257474,
  675812443082747814084,
  675812443084894249284,
  673507163027815006404,
  673507163027781468354,
  673507163027815022784,
  673507163027815022784,
  673507163027815530564,
  673507163027781992514,
  673507163027815546944,
  673507163027815546944,
  675812443087075279044,
  675812443087041740994,
  675812443087108833474,
  675812443087108833474,
  675812443082781360324,
  675812443084894257474,
  675812443082814914754,
  675812443084961349954,
  675812443087075279044,
  675812443087041740994,
  675812443087108833474,
  675812443087108833474,
  821045086816178536644,
  821045086818291433794,
  821045086816212091074,
  821045086818358526274,
  673507163027815006404,
  673507163027781468354,
  673507163027848560834,
  673507163027848560834,
  673507163027815530564,
  673507163027781992514,
  673507163027849084994,
  673507163027849084994,
  675812443087075279044,
  675812443087041740994,
  675812443087041732804,
  675812443087041732804,
  675812443082781360324,
  675812443084894257474,
  675812443082747814084,
  675812443084894249284,
  675812443087075279044,
  675812443087041740994,
  675812443087041732804,
  675812443087041732804,
  821045086816178536644,
  821045086818291433794,
  821045086816144990404,
  821045086818291425604,
  673507163027815006404,
  673507163027781468354,
  673507163023521087684,
  673507163025633984834,
  675812443087075279044,
  675812443087041740994,
  675812443082781360324,
  675812443084894257474,
  821045086820472455364,
  821045086820438917314,
  821045086816178536644,
  821045086818291433794,
  823350366879732728004,
  823350366879699189954,
  823350366875438809284,
  823350366877551706434,
  673507163027815006404,
  673507163027781468354,
  673507163027781460164,
  673507163027781460164,
  673507163027815530564,
  673507163027781992514,
  673507163027781984324,
  673507163027781984324,
  821045086820472455364,
  821045086820438917314,
  821045086820472979524,
  821045086820439441474,
  823350366879732728004,
  823350366879699189954,
  823350366875438809284,
  823350366877551706434,
  675812443087075279044,
  675812443087041740994,
  823350366875438809284,
  823350366877551706434,
  821045086820472455364,
  821045086820438917314,
  821045086816178536644,
  821045086818291433794,
  821045086820472455364,
  821045086820438917314,
  821045086820506009794,
  821045086820506009794,
  821045086816178536644,
  821045086818291433794,
  821045086816212091074,
  821045086818358526274,
  823350366879732728004,
  823350366879699189954,
  823350366879766282434,
  823350366879766282434,
  823350366875438809284,
  823350366877551706434,
  823350366875472363714,
  823350366877618798914,
  821045086820472455364,
  821045086820438917314,
  821045086820472979524,
  821045086820439441474,
  821045086820472455364,
  821045086820438917314,
  821045086820472979524,
  821045086820439441474,
  821045086820472455364,
  821045086820438917314,
  821045086820506009794,
  821045086820506009794,
  821045086820472979524,
  821045086820439441474,
  821045086820506533954,
  821045086820506533954,
  823350366879732728004,
  823350366879699189954,
  823350366875438809284,
  823350366877551706434,
  675812443087075279044,
  675812443087041740994,
  823350366875438809284,
  823350366877551706434,
  821045086820472455364,
  821045086820438917314,
  821045086816178536644,
  821045086818291433794,
  821045086820472455364,
  821045086820438917314,
  821045086820472979524,
  821045086820439441474,
  821045086820472455364,
  821045086820438917314,
  821045086820472979524,
  821045086820439441474,
  823350366879732728004,
  823350366879699189954,
  823350366875438809284,
  823350366877551706434,
  675812443087075279044,
  675812443087041740994,
  823350366875438809284,
  823350366877551706434,
  821045086820472455364,
  821045086820438917314,
  821045086816178536644,
  821045086818291433794,
  821045086820472455364,
  821045086820438917314,
  821045086820472979524,
  821045086820439441474,
  821045086820472455364,
  821045086820438917314,
  821045086820472979524,
  821045086820439441474,
  675812443087075279044,
  675812443087041740994,
  675812443087075295424,
  675812443087075295424,
  675812443087075279044,
  675812443087041740994,
  823350366879732728004,
  823350366879699189954,
  673507163027815006404,
  673507163027781468354,
  823350366879732728004,
  823350366879699189954,
  823350366879732744384,
  823350366879732744384]
def ccdq_t4_aaabaaab_anti1_cert_7 : List Nat := [823350366879732728004,
  823350366879699189954,
  823350366879732744384,
  823350366879732744384,
  823350366879732728004,
  823350366879699189954,
  823350366879766282434,
  823350366879766282434,
  823350366879732728004,
  823350366879699189954,
  823350366879766282434,
  823350366879766282434,
  823350366879732728004,
  823350366879699189954,
  823350366879732744384,
  823350366879732744384,
  673507163027815006404,
  673507163027781468354,
  673507163027815022784,
  673507163027815022784,
  823350366879732728004,
  823350366879699189954,
  823350366879699181764,
  823350366879699181764,
  823350366879732728004,
  823350366879699189954,
  823350366879699181764,
  823350366879699181764,
  675812443087075279044,
  675812443087041740994,
  675812443087075295424,
  675812443087075295424,
  821045086820472455364,
  821045086820438917314,
  821045086820472471744,
  821045086820472471744,
  673507163027815006404,
  673507163027781468354,
  673507163027781460164,
  673507163027781460164,
  675812443087075279044,
  675812443087041740994,
  675812443087041732804,
  675812443087041732804,
  675812443087075279044,
  675812443087041740994,
  675812443087108833474,
  675812443087108833474,
  821045086820472455364,
  821045086820438917314,
  821045086820506009794,
  821045086820506009794,
  675812443087075279044,
  675812443087041740994,
  675812443087041732804,
  675812443087041732804,
  821045086820472455364,
  821045086820438917314,
  821045086820438909124,
  821045086820438909124,
  673507163027815006404,
  673507163027781468354,
  675812443087075279044,
  675812443087041740994,
  821045086820472455364,
  821045086820438917314,
  823350366879732728004,
  823350366879699189954,
  823350366879732728004,
  823350366879699189954,
  823350366879732728004,
  823350366879699189954,
  821045086820472455364,
  821045086820438917314,
  821045086820472455364,
  821045086820438917314,
  821045086820506009794,
  821045086820506009794,
  823350366879732728004,
  823350366879699189954,
  823350366879766282434,
  823350366879766282434,
  823350366879732728004,
  823350366879699189954,
  823350366879732728004,
  823350366879699189954,
  821045086820472455364,
  821045086820438917314,
  823350366879732728004,
  823350366879699189954,
  823350366879732728004,
  823350366879699189954,
  821045086820472455364,
  821045086820438917314,
  823350366879732728004,
  823350366879699189954,
  823350366879732744384,
  823350366879732744384,
  673507163027815006404,
  673507163027781468354,
  673507163027815022784,
  673507163027815022784,
  823350366879732728004,
  823350366879699189954,
  823350366879766282434,
  823350366879766282434,
  673507163027815006404,
  673507163027781468354,
  673507163027848560834,
  673507163027848560834,
  823350366879732728004,
  823350366879699189954,
  823350366879699181764,
  823350366879699181764,
  673507163027815006404,
  673507163027781468354,
  673507163027781460164,
  673507163027781460164,
  673507163027815006404,
  673507163027781468354,
  673507163027815022784,
  673507163027815022784,
  673507163027815006404,
  673507163027781468354,
  673507163027848560834,
  673507163027848560834,
  673507163027815006404,
  673507163027781468354,
  673507163027781460164,
  673507163027781460164,
  821045086820472455364,
  821045086820438917314,
  821045086820472455364,
  821045086820438917314,
  821045086820472455364,
  821045086820438917314,
  821045086820472455364,
  821045086820438917314,
  821045086820506009794,
  821045086820506009794,
  821045086820472455364,
  821045086820438917314,
  821045086820472455364,
  821045086820438917314,
  821045086820472455364,
  821045086820438917314,
  821045086820472455364,
  821045086820438917314]

/-- Check ccdq_t4_aaabaaab_anti1. Sign of aaabaaab under [1, 0, 2, 3, 5, 6, 4, 7]. -/
theorem ccdq_t4_aaabaaab_anti1 : isZero kinds [aᵥ, bᵥ, cᵥ, dᵥ, iₒ, jₒ, kₒ, lₒ] 100000000000000
    (ccdq_t4_aaabaaab ++ (Prog.outs [1, 0, 2, 3, 5, 6, 4, 7] (ccdq_t4_aaabaaab)))
    (ccdq_t4_aaabaaab_anti1_cert_0 ++ (ccdq_t4_aaabaaab_anti1_cert_1 ++ (ccdq_t4_aaabaaab_anti1_cert_2 ++ (ccdq_t4_aaabaaab_anti1_cert_3 ++ (ccdq_t4_aaabaaab_anti1_cert_4 ++ (ccdq_t4_aaabaaab_anti1_cert_5 ++ (ccdq_t4_aaabaaab_anti1_cert_6 ++ (ccdq_t4_aaabaaab_anti1_cert_7)))))))) = true := by decide +kernel

end Verif.Cert
