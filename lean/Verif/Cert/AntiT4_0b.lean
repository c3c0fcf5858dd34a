import Verif.Ein.Ops2
import Verif.Gen.SiCcdqT4_0

/-! Written by `/verif/tools/gen.py`. Checks of einsum programs. -/

set_option maxRecDepth 100000

namespace Verif.Cert

open Verif.Ein Verif.Ein.N


open Verif.Gen

def ccdq_t4_aaaaaaaa_anti1_cert_0 : List Nat := [2283003892736064,
  2283003892736064,
  2282866487337024,
  2282866487337024,
  2283003892736064,
  2283003892736064,
  2283003892727874,
  2283003892727874,
  162160790664388672,
  162160790664388672,
  162160790663864512,
  162160790663864512,
  162160790664388672,
  162160790664388672,
  162151996718850112,
  162151996718850112,
  9226217990700933184,
  9226217990700933184,
  9226217990667386944,
  9226217990667386944,
  9226217990700933184,
  9226217990700933184,
  9226217853295534144,
  9226217853295534144,
  9226217990700933184,
  9226217990700933184,
  9226217990633824324,
  9226217990633824324,
  164412590478073920,
  164412590478073920,
  164412453072674880,
  164412453072674880,
  164412590477549760,
  164412590477549760,
  164412453072150720,
  164412453072150720,
  164412590478073920,
  164412590478073920,
  164412453072674880,
  164412453072674880,
  164412590477549760,
  164412590477549760,
  164412453072150720,
  164412453072150720,
  164412590478073920,
  164412590478073920,
  164412590478065730,
  164412590478065730,
  164412590477549760,
  164412590477549760,
  164412590477541570,
  164412590477541570,
  164412590478073920,
  164412590478073920,
  164412590478065730,
  164412590478065730,
  164412590477549760,
  164412590477549760,
  164412590477541570,
  164412590477541570,
  164412590478073920,
  164412590478073920,
  164412453072674880,
  164412453072674880,
  164403796532535360,
  164403796532535360,
  164403659127136320,
  164403659127136320,
  164412590478073920,
  164412590478073920,
  164412453072674880,
  164412453072674880,
  164403796532535360,
  164403796532535360,
  164403659127136320,
  164403659127136320,
  164412590478073920,
  164412590478073920,
  164412590478065730,
  164412590478065730,
  164403796532535360,
  164403796532535360,
  164403796532527170,
  164403796532527170,
  164412590478073920,
  164412590478073920,
  164412590478065730,
  164412590478065730,
  164403796532535360,
  164403796532535360,
  164403796532527170,
  164403796532527170,
  811818900033884659776,
  811818900033884659776,
  811818900031737700416,
  811818900031737700416,
  811818900033884659776,
  811818900033884659776,
  811818900033884135616,
  811818900033884135616,
  811818900033884659776,
  811818900033884659776,
  811818882441699663936,
  811818882441699663936,
  823350366879766814784,
  823350366879766814784,
  823350366742361415744,
  823350366742361415744,
  821045086820506542144,
  821045086820506542144,
  821045086683101143104,
  821045086683101143104,
  673507163027849093184,
  673507163027849093184,
  673507162890443694144,
  673507162890443694144,
  823350366879766814784,
  823350366879766814784,
  823350366879766806594,
  823350366879766806594,
  821045086820506542144,
  821045086820506542144,
  821045086820506533954,
  821045086820506533954,
  673507163027849093184,
  673507163027849093184,
  673507163027849084994,
  673507163027849084994,
  821045086820506542144,
  821045086820506542144,
  821045086820472995904,
  821045086820472995904,
  821045086820506542144,
  821045086820506542144,
  821045086683101143104,
  821045086683101143104,
  821045086820506542144,
  821045086820506542144,
  821045086820439433284,
  821045086820439433284,
  821045086820506542144,
  821045086820506542144,
  821045086820506017984,
  821045086820506017984,
  673507163027849093184,
  673507163027849093184,
  673507163027848569024,
  673507163027848569024,
  675812443087109365824,
  675812443087109365824,
  675812443087108841664,
  675812443087108841664,
  823350366879766814784,
  823350366879766814784,
  823350366742361415744,
  823350366742361415744,
  823350366879766290624,
  823350366879766290624,
  823350366742360891584,
  823350366742360891584,
  823350366879766814784,
  823350366879766814784,
  823350366742361415744,
  823350366742361415744,
  823350366879766290624,
  823350366879766290624,
  823350366742360891584,
  823350366742360891584,
  673507163027849093184,
  673507163027849093184,
  673507162890443694144,
  673507162890443694144,
  673507163027848569024,
  673507163027848569024,
  673507162890443169984,
  673507162890443169984,
  823350366879766814784,
  823350366879766814784,
  823350366742361415744,
  823350366742361415744,
  823350366879766290624,
  823350366879766290624,
  823350366742360891584,
  823350366742360891584,
  823350366879766814784,
  823350366879766814784,
  823350366879766806594,
  823350366879766806594,
  823350366879766290624,
  823350366879766290624,
  823350366879766282434,
  823350366879766282434,
  823350366879766814784,
  823350366879766814784,
  823350366879766806594,
  823350366879766806594,
  823350366879766290624,
  823350366879766290624,
  823350366879766282434,
  823350366879766282434,
  673507163027849093184,
  673507163027849093184,
  673507163027849084994,
  673507163027849084994,
  673507163027848569024,
  673507163027848569024,
  673507163027848560834,
  673507163027848560834,
  823350366879766814784,
  823350366879766814784,
  823350366879766806594,
  823350366879766806594,
  823350366879766290624,
  823350366879766290624,
  823350366879766282434,
  823350366879766282434,
  821045086820506542144,
  821045086820506542144,
  821045086820472995904,
  821045086820472995904,
  821045086820506017984,
  821045086820506017984,
  821045086820472471744,
  821045086820472471744,
  821045086820506542144,
  821045086820506542144,
  821045086820472995904,
  821045086820472995904,
  821045086820506017984,
  821045086820506017984,
  821045086820472471744,
  821045086820472471744,
  823350366879766814784,
  823350366879766814784,
  823350366879733268544,
  823350366879733268544,
  823350366879766290624,
  823350366879766290624,
  823350366879732744384,
  823350366879732744384,
  821045086820506542144,
  821045086820506542144,
  821045086683101143104,
  821045086683101143104,
  821045086820506017984,
  821045086820506017984,
  821045086683100618944,
  821045086683100618944,
  821045086820506542144,
  821045086820506542144,
  821045086683101143104,
  821045086683101143104,
  821045086820506017984,
  821045086820506017984,
  821045086683100618944,
  821045086683100618944,
  823350366879766814784,
  823350366879766814784,
  823350366742361415744,
  823350366742361415744,
  823350366879766290624,
  823350366879766290624,
  823350366742360891584,
  823350366742360891584,
  821045086820506542144,
  821045086820506542144,
  821045086820439433284,
  821045086820439433284,
  821045086820506017984,
  821045086820506017984,
  821045086820438909124,
  821045086820438909124,
  821045086820506542144,
  821045086820506542144,
  821045086820439433284,
  821045086820439433284,
  821045086820506017984,
  821045086820506017984,
  821045086820438909124,
  821045086820438909124,
  823350366879766814784,
  823350366879766814784,
  823350366879699705924,
  823350366879699705924,
  823350366879766290624,
  823350366879766290624,
  823350366879699181764,
  823350366879699181764,
  821045086820506542144,
  821045086820506542144,
  821045078026561003584,
  821045078026561003584,
  673507163027849093184,
  673507163027849093184,
  673507154233903554624,
  673507154233903554624,
  675812443087109365824,
  675812443087109365824,
  675812434293163827264,
  675812434293163827264,
  823350366879766814784,
  823350366879766814784,
  823350366742361415744,
  823350366742361415744,
  823350358085821276224,
  823350358085821276224,
  823350357948415877184,
  823350357948415877184,
  823350366879766814784,
  823350366879766814784,
  823350366742361415744,
  823350366742361415744,
  823350358085821276224,
  823350358085821276224,
  823350357948415877184,
  823350357948415877184,
  673507163027849093184,
  673507163027849093184,
  673507162890443694144,
  673507162890443694144,
  673507154233903554624,
  673507154233903554624,
  673507154096498155584,
  673507154096498155584,
  823350366879766814784,
  823350366879766814784,
  823350366742361415744,
  823350366742361415744,
  823350358085821276224,
  823350358085821276224,
  823350357948415877184,
  823350357948415877184,
  823350366879766814784,
  823350366879766814784,
  823350366879766806594,
  823350366879766806594,
  823350358085821276224,
  823350358085821276224,
  823350358085821268034,
  823350358085821268034,
  823350366879766814784,
  823350366879766814784,
  823350366879766806594,
  823350366879766806594,
  823350358085821276224,
  823350358085821276224,
  823350358085821268034,
  823350358085821268034,
  673507163027849093184,
  673507163027849093184,
  673507163027849084994,
  673507163027849084994,
  673507154233903554624,
  673507154233903554624,
  673507154233903546434,
  673507154233903546434,
  823350366879766814784,
  823350366879766814784,
  823350366879766806594,
  823350366879766806594,
  823350358085821276224,
  823350358085821276224,
  823350358085821268034,
  823350358085821268034,
  821045086820506542144,
  821045086820506542144,
  821045086820472995904,
  821045086820472995904,
  821045078026561003584,
  821045078026561003584,
  821045078026527457344,
  821045078026527457344,
  821045086820506542144,
  821045086820506542144,
  821045086820472995904,
  821045086820472995904,
  821045078026561003584,
  821045078026561003584,
  821045078026527457344,
  821045078026527457344,
  823350366879766814784,
  823350366879766814784,
  823350366879733268544,
  823350366879733268544,
  823350358085821276224,
  823350358085821276224,
  823350358085787729984,
  823350358085787729984,
  821045086820506542144,
  821045086820506542144,
  821045086683101143104,
  821045086683101143104,
  821045078026561003584,
  821045078026561003584,
  821045077889155604544,
  821045077889155604544,
  821045086820506542144,
  821045086820506542144,
  821045086683101143104,
  821045086683101143104]
def ccdq_t4_aaaaaaaa_anti1_cert_1 : List Nat := [821045078026561003584,
  821045078026561003584,
  821045077889155604544,
  821045077889155604544,
  823350366879766814784,
  823350366879766814784,
  823350366742361415744,
  823350366742361415744,
  823350358085821276224,
  823350358085821276224,
  823350357948415877184,
  823350357948415877184,
  821045086820506542144,
  821045086820506542144,
  821045086820439433284,
  821045086820439433284,
  821045078026561003584,
  821045078026561003584,
  821045078026493894724,
  821045078026493894724,
  821045086820506542144,
  821045086820506542144,
  821045086820439433284,
  821045086820439433284,
  821045078026561003584,
  821045078026561003584,
  821045078026493894724,
  821045078026493894724,
  823350366879766814784,
  823350366879766814784,
  823350366879699705924,
  823350366879699705924,
  823350358085821276224,
  823350358085821276224,
  823350358085754167364,
  823350358085754167364,
  821045086820506542144,
  821045086820506542144,
  821045086818359582784,
  821045086818359582784,
  823350366879766814784,
  823350366879766814784,
  823350366742361415744,
  823350366742361415744,
  823350366877619855424,
  823350366877619855424,
  823350366740214456384,
  823350366740214456384,
  823350366879766814784,
  823350366879766814784,
  823350366742361415744,
  823350366742361415744,
  823350366877619855424,
  823350366877619855424,
  823350366740214456384,
  823350366740214456384,
  675812443087109365824,
  675812443087109365824,
  675812442949703966784,
  675812442949703966784,
  675812443084962406464,
  675812443084962406464,
  675812442947557007424,
  675812442947557007424,
  823350366879766814784,
  823350366879766814784,
  823350366879766806594,
  823350366879766806594,
  823350366877619855424,
  823350366877619855424,
  823350366877619847234,
  823350366877619847234,
  823350366879766814784,
  823350366879766814784,
  823350366879766806594,
  823350366879766806594,
  823350366877619855424,
  823350366877619855424,
  823350366877619847234,
  823350366877619847234,
  675812443087109365824,
  675812443087109365824,
  675812443087109357634,
  675812443087109357634,
  675812443084962406464,
  675812443084962406464,
  675812443084962398274,
  675812443084962398274,
  821045086820506542144,
  821045086820506542144,
  821045086820506017984,
  821045086820506017984,
  823350366879766814784,
  823350366879766814784,
  823350366742361415744,
  823350366742361415744,
  823350366879766290624,
  823350366879766290624,
  823350366742360891584,
  823350366742360891584,
  823350366879766814784,
  823350366879766814784,
  823350366742361415744,
  823350366742361415744,
  823350366879766290624,
  823350366879766290624,
  823350366742360891584,
  823350366742360891584,
  675812443087109365824,
  675812443087109365824,
  675812442949703966784,
  675812442949703966784,
  675812443087108841664,
  675812443087108841664,
  675812442949703442624,
  675812442949703442624,
  823350366879766814784,
  823350366879766814784,
  823350366879766806594,
  823350366879766806594,
  823350366879766290624,
  823350366879766290624,
  823350366879766282434,
  823350366879766282434,
  823350366879766814784,
  823350366879766814784,
  823350366879766806594,
  823350366879766806594,
  823350366879766290624,
  823350366879766290624,
  823350366879766282434,
  823350366879766282434,
  675812443087109365824,
  675812443087109365824,
  675812443087109357634,
  675812443087109357634,
  675812443087108841664,
  675812443087108841664,
  675812443087108833474,
  675812443087108833474,
  821045086820506542144,
  821045086820506542144,
  821045069228321546304,
  821045069228321546304,
  823350366879766814784,
  823350366879766814784,
  823350366742361415744,
  823350366742361415744,
  823350349287581818944,
  823350349287581818944,
  823350349150176419904,
  823350349150176419904,
  823350366879766814784,
  823350366879766814784,
  823350366742361415744,
  823350366742361415744,
  823350349287581818944,
  823350349287581818944,
  823350349150176419904,
  823350349150176419904,
  675812443087109365824,
  675812443087109365824,
  675812442949703966784,
  675812442949703966784,
  675812425494924369984,
  675812425494924369984,
  675812425357518970944,
  675812425357518970944,
  823350366879766814784,
  823350366879766814784,
  823350366879766806594,
  823350366879766806594,
  823350349287581818944,
  823350349287581818944,
  823350349287581810754,
  823350349287581810754,
  823350366879766814784,
  823350366879766814784,
  823350366879766806594,
  823350366879766806594,
  823350349287581818944,
  823350349287581818944,
  823350349287581810754,
  823350349287581810754,
  675812443087109365824,
  675812443087109365824,
  675812443087109357634,
  675812443087109357634,
  675812425494924369984,
  675812425494924369984,
  675812425494924361794,
  675812425494924361794,
  11531498049961205824,
  11531498049961205824,
  11531498049961197634,
  11531498049961197634,
  11531498047814246464,
  11531498047814246464,
  11531498047814238274,
  11531498047814238274,
  11531498049961205824,
  11531498049961205824,
  11531498049961197634,
  11531498049961197634,
  11531498049961205824,
  11531498049961205824,
  11531498049894096964,
  11531498049894096964,
  11531498047814246464,
  11531498047814246464,
  11531498047747137604,
  11531498047747137604,
  11531498049961205824,
  11531498049961205824,
  11531498049894096964,
  11531498049894096964,
  11531498049961205824,
  11531498049961205824,
  11531498049927659584,
  11531498049927659584,
  11531498047814246464,
  11531498047814246464,
  11531498047780700224,
  11531498047780700224,
  11531498049961205824,
  11531498049961205824,
  11531498049927659584,
  11531498049927659584,
  11531498049961205824,
  11531498049961205824,
  11531497637644345414,
  11531497637644345414,
  11531498047814246464,
  11531498047814246464,
  11531497635497386054,
  11531497635497386054,
  11531498049961205824,
  11531498049961205824,
  11531497637644345414,
  11531497637644345414,
  11531498049961205824,
  11531498049961205824,
  11531497775083315264,
  11531497775083315264,
  11531498047814246464,
  11531498047814246464,
  11531497772936355904,
  11531497772936355904,
  11531498049961205824,
  11531498049961205824,
  11531497775083315264,
  11531497775083315264,
  11531498049961205824,
  11531498049961205824,
  11531497912555806784,
  11531497912555806784,
  11531498047814246464,
  11531498047814246464,
  11531497910408847424,
  11531497910408847424,
  11531498049961205824,
  11531498049961205824,
  11531497912555806784,
  11531497912555806784,
  164412590478073920,
  164412590478073920,
  164412590478065730,
  164412590478065730,
  164412588331114560,
  164412588331114560,
  164412588331106370,
  164412588331106370,
  164412590478073920,
  164412590478073920,
  164412453072674880,
  164412453072674880,
  164412588331114560,
  164412588331114560,
  164412450925715520,
  164412450925715520,
  164412590478073920,
  164412590478073920,
  164412590478065730,
  164412590478065730,
  164412590477549760,
  164412590477549760,
  164412590477541570,
  164412590477541570,
  164412590478073920,
  164412590478073920,
  164412453072674880,
  164412453072674880,
  164412590477549760,
  164412590477549760,
  164412453072150720,
  164412453072150720,
  164412590478073920,
  164412590478073920,
  164412590478065730,
  164412590478065730,
  164412588331114560,
  164412588331114560,
  164412588331106370,
  164412588331106370,
  164412590478073920,
  164412590478073920,
  164412590478065730,
  164412590478065730,
  164412590477549760,
  164412590477549760,
  164412590477541570,
  164412590477541570,
  164412590478073920,
  164412590478073920,
  164412590410965060,
  164412590410965060,
  164412588331114560,
  164412588331114560,
  164412588264005700,
  164412588264005700,
  164412590478073920,
  164412590478073920,
  164412590478065730,
  164412590478065730,
  164412588331114560,
  164412588331114560,
  164412588331106370,
  164412588331106370,
  164412590478073920,
  164412590478073920,
  164412590410965060,
  164412590410965060,
  164412590477549760,
  164412590477549760,
  164412590410440900,
  164412590410440900,
  164412590478073920,
  164412590478073920,
  164412590478065730,
  164412590478065730,
  164412590477549760,
  164412590477549760,
  164412590477541570,
  164412590477541570,
  164412590478073920,
  164412590478073920,
  164412590444527680,
  164412590444527680,
  164412588331114560,
  164412588331114560,
  164412588297568320,
  164412588297568320,
  164412590478073920,
  164412590478073920,
  164412590444527680,
  164412590444527680,
  164412590477549760,
  164412590477549760,
  164412590444003520,
  164412590444003520,
  164412590478073920,
  164412590478073920,
  164412590478065730,
  164412590478065730,
  164412586183106880,
  164412586183106880,
  164412586183098690,
  164412586183098690,
  164412590478073920,
  164412590478073920,
  164412453072674880,
  164412453072674880,
  164412586183106880,
  164412586183106880,
  164412448777707840,
  164412448777707840,
  164412590478073920,
  164412590478073920,
  164412590478065730,
  164412590478065730,
  164412586183106880,
  164412586183106880,
  164412586183098690,
  164412586183098690,
  164412590478073920,
  164412590478073920,
  164412590410965060,
  164412590410965060,
  164412586183106880,
  164412586183106880,
  164412586115998020,
  164412586115998020,
  164412590478073920,
  164412590478073920,
  164412590478065730,
  164412590478065730,
  164412586183106880,
  164412586183106880,
  164412586183098690,
  164412586183098690]
def ccdq_t4_aaaaaaaa_anti1_cert_2 : List Nat := [164412590478073920,
  164412590478073920,
  164412590444527680,
  164412590444527680,
  164412586183106880,
  164412586183106880,
  164412586149560640,
  164412586149560640,
  164412590478073920,
  164412590478073920,
  164412590478065730,
  164412590478065730,
  164412590477549760,
  164412590477549760,
  164412590477541570,
  164412590477541570,
  164412590478073920,
  164412590478073920,
  164412453072674880,
  164412453072674880,
  164412590477549760,
  164412590477549760,
  164412453072150720,
  164412453072150720,
  164412590478073920,
  164412590478073920,
  164412590478065730,
  164412590478065730,
  164403796532535360,
  164403796532535360,
  164403796532527170,
  164403796532527170,
  164412590478073920,
  164412590478073920,
  164412453072674880,
  164412453072674880,
  164403796532535360,
  164403796532535360,
  164403659127136320,
  164403659127136320,
  164412590478073920,
  164412590478073920,
  164412590478065730,
  164412590478065730,
  164412590477549760,
  164412590477549760,
  164412590477541570,
  164412590477541570,
  164412590478073920,
  164412590478073920,
  164412590478065730,
  164412590478065730,
  164403796532535360,
  164403796532535360,
  164403796532527170,
  164403796532527170,
  164412590478073920,
  164412590478073920,
  164412590410965060,
  164412590410965060,
  164412590477549760,
  164412590477549760,
  164412590410440900,
  164412590410440900,
  164412590478073920,
  164412590478073920,
  164412590478065730,
  164412590478065730,
  164412590477549760,
  164412590477549760,
  164412590477541570,
  164412590477541570,
  164412590478073920,
  164412590478073920,
  164412590410965060,
  164412590410965060,
  164403796532535360,
  164403796532535360,
  164403796465426500,
  164403796465426500,
  164412590478073920,
  164412590478073920,
  164412590478065730,
  164412590478065730,
  164403796532535360,
  164403796532535360,
  164403796532527170,
  164403796532527170,
  164412590478073920,
  164412590478073920,
  164412590444527680,
  164412590444527680,
  164412590477549760,
  164412590477549760,
  164412590444003520,
  164412590444003520,
  164412590478073920,
  164412590478073920,
  164412590444527680,
  164412590444527680,
  164403796532535360,
  164403796532535360,
  164403796498989120,
  164403796498989120,
  164412590478073920,
  164412590478073920,
  164412590478065730,
  164412590478065730,
  164412590477549760,
  164412590477549760,
  164412590477541570,
  164412590477541570,
  164412590478073920,
  164412590478073920,
  164412453072674880,
  164412453072674880,
  164412590477549760,
  164412590477549760,
  164412453072150720,
  164412453072150720,
  164412590478073920,
  164412590478073920,
  164412590478065730,
  164412590478065730,
  164412590477549760,
  164412590477549760,
  164412590477541570,
  164412590477541570,
  164412590478073920,
  164412590478073920,
  164412590410965060,
  164412590410965060,
  164412590477549760,
  164412590477549760,
  164412590410440900,
  164412590410440900,
  164412590478073920,
  164412590478073920,
  164412590478065730,
  164412590478065730,
  164412590477549760,
  164412590477549760,
  164412590477541570,
  164412590477541570,
  164412590478073920,
  164412590478073920,
  164412590444527680,
  164412590444527680,
  164412590477549760,
  164412590477549760,
  164412590444003520,
  164412590444003520,
  811818900033884659776,
  811818900033884659776,
  811818900033851113536,
  811818900033851113536,
  811818900031737700416,
  811818900031737700416,
  811818900031704154176,
  811818900031704154176,
  811818900033884659776,
  811818900033884659776,
  811818899896479260736,
  811818899896479260736,
  811818900031737700416,
  811818900031737700416,
  811818899894332301376,
  811818899894332301376,
  811818900033884659776,
  811818900033884659776,
  811818900033817550916,
  811818900033817550916,
  811818900031737700416,
  811818900031737700416,
  811818900031670591556,
  811818900031670591556,
  811818900033884659776,
  811818900033884659776,
  811818900033851113536,
  811818900033851113536,
  811818900033884135616,
  811818900033884135616,
  811818900033850589376,
  811818900033850589376,
  811818900033884659776,
  811818900033884659776,
  811818899896479260736,
  811818899896479260736,
  811818900033884135616,
  811818900033884135616,
  811818899896478736576,
  811818899896478736576,
  811818900033884659776,
  811818900033884659776,
  811818900033817550916,
  811818900033817550916,
  811818900033884135616,
  811818900033884135616,
  811818900033817026756,
  811818900033817026756,
  811818900033884659776,
  811818900033884659776,
  811818900033851113536,
  811818900033851113536,
  811818882441699663936,
  811818882441699663936,
  811818882441666117696,
  811818882441666117696,
  811818900033884659776,
  811818900033884659776,
  811818899896479260736,
  811818899896479260736,
  811818882441699663936,
  811818882441699663936,
  811818882304294264896,
  811818882304294264896,
  811818900033884659776,
  811818900033884659776,
  811818900033817550916,
  811818900033817550916,
  811818882441699663936,
  811818882441699663936,
  811818882441632555076,
  811818882441632555076,
  823350366879766814784,
  823350366879766814784,
  823350366879766806594,
  823350366879766806594,
  823350366877619855424,
  823350366877619855424,
  823350366877619847234,
  823350366877619847234,
  823350366879766814784,
  823350366879766814784,
  823350366879766806594,
  823350366879766806594,
  823350366879766814784,
  823350366879766814784,
  823350366879699705924,
  823350366879699705924,
  823350366877619855424,
  823350366877619855424,
  823350366877552746564,
  823350366877552746564,
  823350366879766814784,
  823350366879766814784,
  823350366879699705924,
  823350366879699705924,
  823350366879766814784,
  823350366879766814784,
  823350366879733268544,
  823350366879733268544,
  823350366877619855424,
  823350366877619855424,
  823350366877586309184,
  823350366877586309184,
  823350366879766814784,
  823350366879766814784,
  823350366879733268544,
  823350366879733268544,
  823350366879766814784,
  823350366879766814784,
  823350366467449954374,
  823350366467449954374,
  823350366877619855424,
  823350366877619855424,
  823350366465302995014,
  823350366465302995014,
  823350366879766814784,
  823350366879766814784,
  823350366467449954374,
  823350366467449954374,
  823350366879766814784,
  823350366879766814784,
  823350366604888924224,
  823350366604888924224,
  823350366877619855424,
  823350366877619855424,
  823350366602741964864,
  823350366602741964864,
  823350366879766814784,
  823350366879766814784,
  823350366604888924224,
  823350366604888924224,
  823350366879766814784,
  823350366879766814784,
  823350366742361415744,
  823350366742361415744,
  823350366877619855424,
  823350366877619855424,
  823350366740214456384,
  823350366740214456384,
  823350366879766814784,
  823350366879766814784,
  823350366742361415744,
  823350366742361415744,
  823350366879766814784,
  823350366879766814784,
  823350366879766806594,
  823350366879766806594,
  823350366877619855424,
  823350366877619855424,
  823350366877619847234,
  823350366877619847234,
  673507163027849093184,
  673507163027849093184,
  673507163027849084994,
  673507163027849084994,
  673507163025702133824,
  673507163025702133824,
  673507163025702125634,
  673507163025702125634,
  823350366879766814784,
  823350366879766814784,
  823350366742361415744,
  823350366742361415744,
  823350366877619855424,
  823350366877619855424,
  823350366740214456384,
  823350366740214456384,
  673507163027849093184,
  673507163027849093184,
  673507162890443694144,
  673507162890443694144,
  673507163025702133824,
  673507163025702133824,
  673507162888296734784,
  673507162888296734784,
  823350366879766814784,
  823350366879766814784,
  823350366879766806594,
  823350366879766806594,
  823350366879766290624,
  823350366879766290624,
  823350366879766282434,
  823350366879766282434,
  673507163027849093184,
  673507163027849093184,
  673507163027849084994,
  673507163027849084994,
  673507163027848569024,
  673507163027848569024,
  673507163027848560834,
  673507163027848560834,
  823350366879766814784,
  823350366879766814784,
  823350366742361415744,
  823350366742361415744,
  823350366879766290624,
  823350366879766290624,
  823350366742360891584,
  823350366742360891584,
  673507163027849093184,
  673507163027849093184,
  673507162890443694144,
  673507162890443694144,
  673507163027848569024,
  673507163027848569024,
  673507162890443169984,
  673507162890443169984,
  823350366879766814784,
  823350366879766814784,
  823350366879766806594,
  823350366879766806594,
  823350366877619855424,
  823350366877619855424,
  823350366877619847234,
  823350366877619847234,
  673507163027849093184,
  673507163027849093184,
  673507163027849084994,
  673507163027849084994,
  673507163025702133824,
  673507163025702133824,
  673507163025702125634,
  673507163025702125634,
  823350366879766814784,
  823350366879766814784,
  823350366879766806594,
  823350366879766806594,
  823350366879766290624,
  823350366879766290624,
  823350366879766282434,
  823350366879766282434,
  673507163027849093184,
  673507163027849093184,
  673507163027849084994,
  673507163027849084994,
  673507163027848569024,
  673507163027848569024,
  673507163027848560834,
  673507163027848560834,
  823350366879766814784,
  823350366879766814784,
  823350366879699705924,
  823350366879699705924,
  823350366877619855424,
  823350366877619855424,
  823350366877552746564,
  823350366877552746564]
def ccdq_t4_aaaaaaaa_anti1_cert_3 : List Nat := [673507163027849093184,
  673507163027849093184,
  673507163027781984324,
  673507163027781984324,
  673507163025702133824,
  673507163025702133824,
  673507163025635024964,
  673507163025635024964,
  823350366879766814784,
  823350366879766814784,
  823350366879766806594,
  823350366879766806594,
  823350366877619855424,
  823350366877619855424,
  823350366877619847234,
  823350366877619847234,
  673507163027849093184,
  673507163027849093184,
  673507163027849084994,
  673507163027849084994,
  673507163025702133824,
  673507163025702133824,
  673507163025702125634,
  673507163025702125634,
  823350366879766814784,
  823350366879766814784,
  823350366879699705924,
  823350366879699705924,
  823350366879766290624,
  823350366879766290624,
  823350366879699181764,
  823350366879699181764,
  673507163027849093184,
  673507163027849093184,
  673507163027781984324,
  673507163027781984324,
  673507163027848569024,
  673507163027848569024,
  673507163027781460164,
  673507163027781460164,
  823350366879766814784,
  823350366879766814784,
  823350366879766806594,
  823350366879766806594,
  823350366879766290624,
  823350366879766290624,
  823350366879766282434,
  823350366879766282434,
  673507163027849093184,
  673507163027849093184,
  673507163027849084994,
  673507163027849084994,
  673507163027848569024,
  673507163027848569024,
  673507163027848560834,
  673507163027848560834,
  823350366879766814784,
  823350366879766814784,
  823350366879733268544,
  823350366879733268544,
  823350366877619855424,
  823350366877619855424,
  823350366877586309184,
  823350366877586309184,
  673507163027849093184,
  673507163027849093184,
  673507163027815546944,
  673507163027815546944,
  673507163025702133824,
  673507163025702133824,
  673507163025668587584,
  673507163025668587584,
  823350366879766814784,
  823350366879766814784,
  823350366879733268544,
  823350366879733268544,
  823350366879766290624,
  823350366879766290624,
  823350366879732744384,
  823350366879732744384,
  673507163027849093184,
  673507163027849093184,
  673507163027815546944,
  673507163027815546944,
  673507163027848569024,
  673507163027848569024,
  673507163027815022784,
  673507163027815022784,
  823350366879766814784,
  823350366879766814784,
  823350366879766806594,
  823350366879766806594,
  823350366877619855424,
  823350366877619855424,
  823350366877619847234,
  823350366877619847234,
  821045086820506542144,
  821045086820506542144,
  821045086820506533954,
  821045086820506533954,
  821045086818359582784,
  821045086818359582784,
  821045086818359574594,
  821045086818359574594,
  821045086820506542144,
  821045086820506542144,
  821045086820472995904,
  821045086820472995904,
  821045086818359582784,
  821045086818359582784,
  821045086818326036544,
  821045086818326036544,
  823350366879766814784,
  823350366879766814784,
  823350366879766806594,
  823350366879766806594,
  823350366879766290624,
  823350366879766290624,
  823350366879766282434,
  823350366879766282434,
  821045086820506542144,
  821045086820506542144,
  821045086820506533954,
  821045086820506533954,
  821045086820506017984,
  821045086820506017984,
  821045086820506009794,
  821045086820506009794,
  821045086820506542144,
  821045086820506542144,
  821045086820472995904,
  821045086820472995904,
  821045086820506017984,
  821045086820506017984,
  821045086820472471744,
  821045086820472471744,
  823350366879766814784,
  823350366879766814784,
  823350366879699705924,
  823350366879699705924,
  823350366877619855424,
  823350366877619855424,
  823350366877552746564,
  823350366877552746564,
  821045086820506542144,
  821045086820506542144,
  821045086820439433284,
  821045086820439433284,
  821045086818359582784,
  821045086818359582784,
  821045086818292473924,
  821045086818292473924,
  823350366879766814784,
  823350366879766814784,
  823350366879699705924,
  823350366879699705924,
  823350366879766290624,
  823350366879766290624,
  823350366879699181764,
  823350366879699181764,
  821045086820506542144,
  821045086820506542144,
  821045086820439433284,
  821045086820439433284,
  821045086820506017984,
  821045086820506017984,
  821045086820438909124,
  821045086820438909124,
  823350366879766814784,
  823350366879766814784,
  823350366879733268544,
  823350366879733268544,
  823350366877619855424,
  823350366877619855424,
  823350366877586309184,
  823350366877586309184,
  821045086820506542144,
  821045086820506542144,
  821045086820472995904,
  821045086820472995904,
  821045086818359582784,
  821045086818359582784,
  821045086818326036544,
  821045086818326036544,
  821045086820506542144,
  821045086820506542144,
  821045086683101143104,
  821045086683101143104,
  821045086818359582784,
  821045086818359582784,
  821045086680954183744,
  821045086680954183744,
  823350366879766814784,
  823350366879766814784,
  823350366879733268544,
  823350366879733268544,
  823350366879766290624,
  823350366879766290624,
  823350366879732744384,
  823350366879732744384,
  821045086820506542144,
  821045086820506542144,
  821045086820472995904,
  821045086820472995904,
  821045086820506017984,
  821045086820506017984,
  821045086820472471744,
  821045086820472471744,
  821045086820506542144,
  821045086820506542144,
  821045086683101143104,
  821045086683101143104,
  821045086820506017984,
  821045086820506017984,
  821045086683100618944,
  821045086683100618944,
  823350366879766814784,
  823350366879766814784,
  823350366467449954374,
  823350366467449954374,
  823350366877619855424,
  823350366877619855424,
  823350366465302995014,
  823350366465302995014,
  821045086820506542144,
  821045086820506542144,
  821045086408189681734,
  821045086408189681734,
  821045086818359582784,
  821045086818359582784,
  821045086406042722374,
  821045086406042722374,
  821045086820506542144,
  821045086820506542144,
  821045086820439433284,
  821045086820439433284,
  821045086818359582784,
  821045086818359582784,
  821045086818292473924,
  821045086818292473924,
  823350366879766814784,
  823350366879766814784,
  823350366467449954374,
  823350366467449954374,
  823350366879766290624,
  823350366879766290624,
  823350366467449430214,
  823350366467449430214,
  821045086820506542144,
  821045086820506542144,
  821045086408189681734,
  821045086408189681734,
  821045086820506017984,
  821045086820506017984,
  821045086408189157574,
  821045086408189157574,
  821045086820506542144,
  821045086820506542144,
  821045086820439433284,
  821045086820439433284,
  821045086820506017984,
  821045086820506017984,
  821045086820438909124,
  821045086820438909124,
  823350366879766814784,
  823350366879766814784,
  823350366604888924224,
  823350366604888924224,
  823350366877619855424,
  823350366877619855424,
  823350366602741964864,
  823350366602741964864,
  821045086820506542144,
  821045086820506542144,
  821045086545628651584,
  821045086545628651584,
  821045086818359582784,
  821045086818359582784,
  821045086543481692224,
  821045086543481692224,
  823350366879766814784,
  823350366879766814784,
  823350366604888924224,
  823350366604888924224,
  823350366879766290624,
  823350366879766290624,
  823350366604888400064,
  823350366604888400064,
  821045086820506542144,
  821045086820506542144,
  821045086545628651584,
  821045086545628651584,
  821045086820506017984,
  821045086820506017984,
  821045086545628127424,
  821045086545628127424,
  823350366879766814784,
  823350366879766814784,
  823350366742361415744,
  823350366742361415744,
  823350366877619855424,
  823350366877619855424,
  823350366740214456384,
  823350366740214456384,
  821045086820506542144,
  821045086820506542144,
  821045086683101143104,
  821045086683101143104,
  821045086818359582784,
  821045086818359582784,
  821045086680954183744,
  821045086680954183744,
  823350366879766814784,
  823350366879766814784,
  823350366742361415744,
  823350366742361415744,
  823350366879766290624,
  823350366879766290624,
  823350366742360891584,
  823350366742360891584,
  821045086820506542144,
  821045086820506542144,
  821045086683101143104,
  821045086683101143104,
  821045086820506017984,
  821045086820506017984,
  821045086683100618944,
  821045086683100618944,
  823350366879766814784,
  823350366879766814784,
  823350366879766806594,
  823350366879766806594,
  673507163027849093184,
  673507163027849093184,
  673507163027849084994,
  673507163027849084994,
  823350366879766814784,
  823350366879766814784,
  823350366742361415744,
  823350366742361415744,
  673507163027849093184,
  673507163027849093184,
  673507162890443694144,
  673507162890443694144,
  823350366879766814784,
  823350366879766814784,
  823350366879766806594,
  823350366879766806594,
  673507163027849093184,
  673507163027849093184,
  673507163027849084994,
  673507163027849084994,
  823350366879766814784,
  823350366879766814784,
  823350366879699705924,
  823350366879699705924,
  673507163027849093184,
  673507163027849093184,
  673507163027781984324,
  673507163027781984324,
  823350366879766814784,
  823350366879766814784,
  823350366879766806594,
  823350366879766806594,
  673507163027849093184,
  673507163027849093184,
  673507163027849084994,
  673507163027849084994,
  823350366879766814784,
  823350366879766814784,
  823350366879733268544,
  823350366879733268544,
  673507163027849093184,
  673507163027849093184,
  673507163027815546944,
  673507163027815546944,
  823350366879766814784,
  823350366879766814784,
  823350366879766806594,
  823350366879766806594,
  821045086820506542144,
  821045086820506542144,
  821045086820506533954,
  821045086820506533954,
  821045086820506542144,
  821045086820506542144,
  821045086820472995904,
  821045086820472995904,
  823350366879766814784,
  823350366879766814784,
  823350366879699705924,
  823350366879699705924,
  821045086820506542144,
  821045086820506542144,
  821045086820439433284,
  821045086820439433284,
  823350366879766814784,
  823350366879766814784,
  823350366879733268544,
  823350366879733268544]
def ccdq_t4_aaaaaaaa_anti1_cert_4 : List Nat := [821045086820506542144,
  821045086820506542144,
  821045086820472995904,
  821045086820472995904,
  821045086820506542144,
  821045086820506542144,
  821045086683101143104,
  821045086683101143104,
  823350366879766814784,
  823350366879766814784,
  823350366467449954374,
  823350366467449954374,
  821045086820506542144,
  821045086820506542144,
  821045086408189681734,
  821045086408189681734,
  821045086820506542144,
  821045086820506542144,
  821045086820439433284,
  821045086820439433284,
  823350366879766814784,
  823350366879766814784,
  823350366604888924224,
  823350366604888924224,
  821045086820506542144,
  821045086820506542144,
  821045086545628651584,
  821045086545628651584,
  823350366879766814784,
  823350366879766814784,
  823350366742361415744,
  823350366742361415744,
  821045086820506542144,
  821045086820506542144,
  821045086683101143104,
  821045086683101143104,
  823350366879766814784,
  823350366879766814784,
  823350366879766806594,
  823350366879766806594,
  673507163027849093184,
  673507163027849093184,
  673507163027849084994,
  673507163027849084994,
  823350366879766814784,
  823350366879766814784,
  823350366742361415744,
  823350366742361415744,
  673507163027849093184,
  673507163027849093184,
  673507162890443694144,
  673507162890443694144,
  823350366879766814784,
  823350366879766814784,
  823350366879766806594,
  823350366879766806594,
  673507163027849093184,
  673507163027849093184,
  673507163027849084994,
  673507163027849084994,
  823350366879766814784,
  823350366879766814784,
  823350366879699705924,
  823350366879699705924,
  673507163027849093184,
  673507163027849093184,
  673507163027781984324,
  673507163027781984324,
  823350366879766814784,
  823350366879766814784,
  823350366879766806594,
  823350366879766806594,
  673507163027849093184,
  673507163027849093184,
  673507163027849084994,
  673507163027849084994,
  823350366879766814784,
  823350366879766814784,
  823350366879733268544,
  823350366879733268544,
  673507163027849093184,
  673507163027849093184,
  673507163027815546944,
  673507163027815546944,
  823350366879766814784,
  823350366879766814784,
  823350366879766806594,
  823350366879766806594,
  821045086820506542144,
  821045086820506542144,
  821045086820506533954,
  821045086820506533954,
  821045086820506542144,
  821045086820506542144,
  821045086820472995904,
  821045086820472995904,
  823350366879766814784,
  823350366879766814784,
  823350366879699705924,
  823350366879699705924,
  821045086820506542144,
  821045086820506542144,
  821045086820439433284,
  821045086820439433284,
  823350366879766814784,
  823350366879766814784,
  823350366879733268544,
  823350366879733268544,
  821045086820506542144,
  821045086820506542144,
  821045086820472995904,
  821045086820472995904,
  821045086820506542144,
  821045086820506542144,
  821045086683101143104,
  821045086683101143104,
  823350366879766814784,
  823350366879766814784,
  823350366467449954374,
  823350366467449954374,
  821045086820506542144,
  821045086820506542144,
  821045086408189681734,
  821045086408189681734,
  821045086820506542144,
  821045086820506542144,
  821045086820439433284,
  821045086820439433284,
  823350366879766814784,
  823350366879766814784,
  823350366604888924224,
  823350366604888924224,
  821045086820506542144,
  821045086820506542144,
  821045086545628651584,
  821045086545628651584,
  823350366879766814784,
  823350366879766814784,
  823350366742361415744,
  823350366742361415744,
  821045086820506542144,
  821045086820506542144,
  821045086683101143104,
  821045086683101143104,
  2274209913634884,
  2274209880096834,
  2273935102836804,
  2274072441151554,
  2274209913634884,
  2274209880096834,
  2274209913651264,
  2274209913651264,
  162151996685287492,
  162151996651749442,
  162151996684763332,
  162151996651225282,
  162151996685287492,
  162151996651749442,
  162160790630826052,
  162160790597288002,
  9226209196721832004,
  9226209196688293954,
  9226209196688285764,
  9226209196688285764,
  9226209196721832004,
  9226209196688293954,
  9226208921911033924,
  9226209059249348674,
  9226209196721832004,
  9226209196688293954,
  9226209196755386434,
  9226209196755386434,
  164403796498972740,
  164403796465434690,
  164403521688174660,
  164403659026489410,
  164403796498448580,
  164403796464910530,
  164403521687650500,
  164403659025965250,
  164403796498972740,
  164403796465434690,
  164403521688174660,
  164403659026489410,
  164403796498448580,
  164403796464910530,
  164403521687650500,
  164403659025965250,
  164403796498972740,
  164403796465434690,
  164403796498989120,
  164403796498989120,
  164403796498448580,
  164403796464910530,
  164403796498464960,
  164403796498464960,
  164403796498972740,
  164403796465434690,
  164403796498989120,
  164403796498989120,
  164403796498448580,
  164403796464910530,
  164403796498464960,
  164403796498464960,
  164403796498972740,
  164403796465434690,
  164403521688174660,
  164403659026489410,
  164412590444511300,
  164412590410973250,
  164412315633713220,
  164412452972027970,
  164403796498972740,
  164403796465434690,
  164403521688174660,
  164403659026489410,
  164412590444511300,
  164412590410973250,
  164412315633713220,
  164412452972027970,
  164403796498972740,
  164403796465434690,
  164403796498989120,
  164403796498989120,
  164412590444511300,
  164412590410973250,
  164412590444527680,
  164412590444527680,
  164403796498972740,
  164403796465434690,
  164403796498989120,
  164403796498989120,
  164412590444511300,
  164412590410973250,
  164412590444527680,
  164412590444527680,
  811818891239905558596,
  811818891239872020546,
  811818891235611639876,
  811818882443779522626,
  811818891239905558596,
  811818891239872020546,
  811818891239905034436,
  811818891239871496386,
  811818891239905558596,
  811818891239872020546,
  811818882443813060676,
  811818891235578101826,
  823350358085787713604,
  823350358085754175554,
  823350357810976915524,
  823350357948315230274,
  821045078026527440964,
  821045078026493902914,
  821045077751716642884,
  821045077889054957634,
  673507154233869992004,
  673507154233836453954,
  673507153959059193924,
  673507154096397508674,
  823350358085787713604,
  823350358085754175554,
  823350358085787729984,
  823350358085787729984,
  821045078026527440964,
  821045078026493902914,
  821045078026527457344,
  821045078026527457344,
  673507154233869992004,
  673507154233836453954,
  673507154233870008384,
  673507154233870008384,
  821045078026527440964,
  821045078026493902914,
  821045078026493894724,
  821045078026493894724,
  821045078026527440964,
  821045078026493902914,
  821045077751716642884,
  821045077889054957634,
  821045078026527440964,
  821045078026493902914,
  821045078026560995394,
  821045078026560995394,
  821045078026527440964,
  821045078026493902914,
  821045078026526916804,
  821045078026493378754,
  673507154233869992004,
  673507154233836453954,
  673507154233869467844,
  673507154233835929794,
  675812434293130264644,
  675812434293096726594,
  675812434293129740484,
  675812434293096202434,
  823350358085787713604,
  823350358085754175554,
  823350357810976915524,
  823350357948315230274,
  823350358085787189444,
  823350358085753651394,
  823350357810976391364,
  823350357948314706114,
  823350358085787713604,
  823350358085754175554,
  823350357810976915524,
  823350357948315230274,
  823350358085787189444,
  823350358085753651394,
  823350357810976391364,
  823350357948314706114,
  673507154233869992004,
  673507154233836453954,
  673507153959059193924,
  673507154096397508674,
  673507154233869467844,
  673507154233835929794,
  673507153959058669764,
  673507154096396984514,
  823350358085787713604,
  823350358085754175554,
  823350357810976915524,
  823350357948315230274,
  823350358085787189444,
  823350358085753651394,
  823350357810976391364,
  823350357948314706114,
  823350358085787713604,
  823350358085754175554,
  823350358085787729984,
  823350358085787729984,
  823350358085787189444,
  823350358085753651394,
  823350358085787205824,
  823350358085787205824,
  823350358085787713604,
  823350358085754175554,
  823350358085787729984,
  823350358085787729984,
  823350358085787189444,
  823350358085753651394,
  823350358085787205824,
  823350358085787205824,
  673507154233869992004,
  673507154233836453954,
  673507154233870008384,
  673507154233870008384,
  673507154233869467844,
  673507154233835929794,
  673507154233869484224,
  673507154233869484224,
  823350358085787713604,
  823350358085754175554,
  823350358085787729984,
  823350358085787729984,
  823350358085787189444,
  823350358085753651394,
  823350358085787205824,
  823350358085787205824,
  821045078026527440964,
  821045078026493902914,
  821045078026493894724,
  821045078026493894724,
  821045078026526916804,
  821045078026493378754,
  821045078026493370564,
  821045078026493370564,
  821045078026527440964,
  821045078026493902914,
  821045078026493894724,
  821045078026493894724,
  821045078026526916804,
  821045078026493378754,
  821045078026493370564,
  821045078026493370564,
  823350358085787713604,
  823350358085754175554,
  823350358085754167364,
  823350358085754167364,
  823350358085787189444,
  823350358085753651394,
  823350358085753643204,
  823350358085753643204,
  821045078026527440964,
  821045078026493902914,
  821045077751716642884,
  821045077889054957634,
  821045078026526916804,
  821045078026493378754,
  821045077751716118724,
  821045077889054433474,
  821045078026527440964,
  821045078026493902914,
  821045077751716642884,
  821045077889054957634,
  821045078026526916804,
  821045078026493378754,
  821045077751716118724,
  821045077889054433474]
def ccdq_t4_aaaaaaaa_anti1_cert_5 : List Nat := [823350358085787713604,
  823350358085754175554,
  823350357810976915524,
  823350357948315230274,
  823350358085787189444,
  823350358085753651394,
  823350357810976391364,
  823350357948314706114,
  821045078026527440964,
  821045078026493902914,
  821045078026560995394,
  821045078026560995394,
  821045078026526916804,
  821045078026493378754,
  821045078026560471234,
  821045078026560471234,
  821045078026527440964,
  821045078026493902914,
  821045078026560995394,
  821045078026560995394,
  821045078026526916804,
  821045078026493378754,
  821045078026560471234,
  821045078026560471234,
  823350358085787713604,
  823350358085754175554,
  823350358085821268034,
  823350358085821268034,
  823350358085787189444,
  823350358085753651394,
  823350358085820743874,
  823350358085820743874,
  821045078026527440964,
  821045078026493902914,
  821045086820472979524,
  821045086820439441474,
  673507154233869992004,
  673507154233836453954,
  673507163027815530564,
  673507163027781992514,
  675812434293130264644,
  675812434293096726594,
  675812443087075803204,
  675812443087042265154,
  823350358085787713604,
  823350358085754175554,
  823350357810976915524,
  823350357948315230274,
  823350366879733252164,
  823350366879699714114,
  823350366604922454084,
  823350366742260768834,
  823350358085787713604,
  823350358085754175554,
  823350357810976915524,
  823350357948315230274,
  823350366879733252164,
  823350366879699714114,
  823350366604922454084,
  823350366742260768834,
  673507154233869992004,
  673507154233836453954,
  673507153959059193924,
  673507154096397508674,
  673507163027815530564,
  673507163027781992514,
  673507162753004732484,
  673507162890343047234,
  823350358085787713604,
  823350358085754175554,
  823350357810976915524,
  823350357948315230274,
  823350366879733252164,
  823350366879699714114,
  823350366604922454084,
  823350366742260768834,
  823350358085787713604,
  823350358085754175554,
  823350358085787729984,
  823350358085787729984,
  823350366879733252164,
  823350366879699714114,
  823350366879733268544,
  823350366879733268544,
  823350358085787713604,
  823350358085754175554,
  823350358085787729984,
  823350358085787729984,
  823350366879733252164,
  823350366879699714114,
  823350366879733268544,
  823350366879733268544,
  673507154233869992004,
  673507154233836453954,
  673507154233870008384,
  673507154233870008384,
  673507163027815530564,
  673507163027781992514,
  673507163027815546944,
  673507163027815546944,
  823350358085787713604,
  823350358085754175554,
  823350358085787729984,
  823350358085787729984,
  823350366879733252164,
  823350366879699714114,
  823350366879733268544,
  823350366879733268544,
  821045078026527440964,
  821045078026493902914,
  821045078026493894724,
  821045078026493894724,
  821045086820472979524,
  821045086820439441474,
  821045086820439433284,
  821045086820439433284,
  821045078026527440964,
  821045078026493902914,
  821045078026493894724,
  821045078026493894724,
  821045086820472979524,
  821045086820439441474,
  821045086820439433284,
  821045086820439433284,
  823350358085787713604,
  823350358085754175554,
  823350358085754167364,
  823350358085754167364,
  823350366879733252164,
  823350366879699714114,
  823350366879699705924,
  823350366879699705924,
  821045078026527440964,
  821045078026493902914,
  821045077751716642884,
  821045077889054957634,
  821045086820472979524,
  821045086820439441474,
  821045086545662181444,
  821045086683000496194,
  821045078026527440964,
  821045078026493902914,
  821045077751716642884,
  821045077889054957634,
  821045086820472979524,
  821045086820439441474,
  821045086545662181444,
  821045086683000496194,
  823350358085787713604,
  823350358085754175554,
  823350357810976915524,
  823350357948315230274,
  823350366879733252164,
  823350366879699714114,
  823350366604922454084,
  823350366742260768834,
  821045078026527440964,
  821045078026493902914,
  821045078026560995394,
  821045078026560995394,
  821045086820472979524,
  821045086820439441474,
  821045086820506533954,
  821045086820506533954,
  821045078026527440964,
  821045078026493902914,
  821045078026560995394,
  821045078026560995394,
  821045086820472979524,
  821045086820439441474,
  821045086820506533954,
  821045086820506533954,
  823350358085787713604,
  823350358085754175554,
  823350358085821268034,
  823350358085821268034,
  823350366879733252164,
  823350366879699714114,
  823350366879766806594,
  823350366879766806594,
  821045078026527440964,
  821045078026493902914,
  821045078022233522244,
  821045069230401404994,
  823350358085787713604,
  823350358085754175554,
  823350357810976915524,
  823350357948315230274,
  823350358081493794884,
  823350349289661677634,
  823350357806682996804,
  823350349152222732354,
  823350358085787713604,
  823350358085754175554,
  823350357810976915524,
  823350357948315230274,
  823350358081493794884,
  823350349289661677634,
  823350357806682996804,
  823350349152222732354,
  675812434293130264644,
  675812434293096726594,
  675812434018319466564,
  675812434155657781314,
  675812434288836345924,
  675812425497004228674,
  675812434014025547844,
  675812425359565283394,
  823350358085787713604,
  823350358085754175554,
  823350358085787729984,
  823350358085787729984,
  823350358081493794884,
  823350349289661677634,
  823350358081493811264,
  823350349289695232064,
  823350358085787713604,
  823350358085754175554,
  823350358085787729984,
  823350358085787729984,
  823350358081493794884,
  823350349289661677634,
  823350358081493811264,
  823350349289695232064,
  675812434293130264644,
  675812434293096726594,
  675812434293130281024,
  675812434293130281024,
  675812434288836345924,
  675812425497004228674,
  675812434288836362304,
  675812425497037783104,
  821045078026527440964,
  821045078026493902914,
  821045078026526916804,
  821045078026493378754,
  823350358085787713604,
  823350358085754175554,
  823350357810976915524,
  823350357948315230274,
  823350358085787189444,
  823350358085753651394,
  823350357810976391364,
  823350357948314706114,
  823350358085787713604,
  823350358085754175554,
  823350357810976915524,
  823350357948315230274,
  823350358085787189444,
  823350358085753651394,
  823350357810976391364,
  823350357948314706114,
  675812434293130264644,
  675812434293096726594,
  675812434018319466564,
  675812434155657781314,
  675812434293129740484,
  675812434293096202434,
  675812434018318942404,
  675812434155657257154,
  823350358085787713604,
  823350358085754175554,
  823350358085787729984,
  823350358085787729984,
  823350358085787189444,
  823350358085753651394,
  823350358085787205824,
  823350358085787205824,
  823350358085787713604,
  823350358085754175554,
  823350358085787729984,
  823350358085787729984,
  823350358085787189444,
  823350358085753651394,
  823350358085787205824,
  823350358085787205824,
  675812434293130264644,
  675812434293096726594,
  675812434293130281024,
  675812434293130281024,
  675812434293129740484,
  675812434293096202434,
  675812434293129756864,
  675812434293129756864,
  821045078026527440964,
  821045078026493902914,
  821045069230434943044,
  821045078022199984194,
  823350358085787713604,
  823350358085754175554,
  823350357810976915524,
  823350357948315230274,
  823350349289695215684,
  823350358081460256834,
  823350349014884417604,
  823350357944021311554,
  823350358085787713604,
  823350358085754175554,
  823350357810976915524,
  823350357948315230274,
  823350349289695215684,
  823350358081460256834,
  823350349014884417604,
  823350357944021311554,
  675812434293130264644,
  675812434293096726594,
  675812434018319466564,
  675812434155657781314,
  675812425497037766724,
  675812434288802807874,
  675812425222226968644,
  675812434151363862594,
  823350358085787713604,
  823350358085754175554,
  823350358085787729984,
  823350358085787729984,
  823350349289695215684,
  823350358081460256834,
  823350349289695232064,
  823350358081493811264,
  823350358085787713604,
  823350358085754175554,
  823350358085787729984,
  823350358085787729984,
  823350349289695215684,
  823350358081460256834,
  823350349289695232064,
  823350358081493811264,
  675812434293130264644,
  675812434293096726594,
  675812434293130281024,
  675812434293130281024,
  675812425497037766724,
  675812434288802807874,
  675812425497037783104,
  675812434288836362304,
  11531489255982104644,
  11531489255948566594,
  11531489255982121024,
  11531489255982121024,
  11531489251688185924,
  11531480459856068674,
  11531489251688202304,
  11531480459889623104,
  11531489255982104644,
  11531489255948566594,
  11531489255982121024,
  11531489255982121024,
  11531489255982104644,
  11531489255948566594,
  11531489256015659074,
  11531489256015659074,
  11531489251688185924,
  11531480459856068674,
  11531489251721740354,
  11531480459923161154,
  11531489255982104644,
  11531489255948566594,
  11531489256015659074,
  11531489256015659074,
  11531489255982104644,
  11531489255948566594,
  11531489255948558404,
  11531489255948558404,
  11531489251688185924,
  11531480459856068674,
  11531489251654639684,
  11531480459856060484,
  11531489255982104644,
  11531489255948566594,
  11531489255948558404,
  11531489255948558404,
  11531489255982104644,
  11531489255948566594,
  11531489118543151174,
  11531488843732369474,
  11531489251688185924,
  11531480459856068674,
  11531489114249232454,
  11531480047639871554,
  11531489255982104644,
  11531489255948566594,
  11531489118543151174,
  11531488843732369474,
  11531489255982104644,
  11531489255948566594,
  11531488843665268804,
  11531488981070659654,
  11531489251688185924,
  11531480459856068674,
  11531488839371350084,
  11531480184978161734,
  11531489255982104644,
  11531489255948566594,
  11531488843665268804,
  11531488981070659654,
  11531489255982104644,
  11531489255948566594,
  11531488981171306564,
  11531489118509621314]
def ccdq_t4_aaaaaaaa_anti1_cert_6 : List Nat := [11531489251688185924,
  11531480459856068674,
  11531488976877387844,
  11531480322417123394,
  11531489255982104644,
  11531489255948566594,
  11531488981171306564,
  11531489118509621314,
  164403796498972740,
  164403796465434690,
  164403796498989120,
  164403796498989120,
  164403792205054020,
  164395000372936770,
  164403792205070400,
  164395000406491200,
  164403796498972740,
  164403796465434690,
  164403521688174660,
  164403659026489410,
  164403792205054020,
  164395000372936770,
  164403517394255940,
  164394862933991490,
  164403796498972740,
  164403796465434690,
  164403796498989120,
  164403796498989120,
  164403796498448580,
  164403796464910530,
  164403796498464960,
  164403796498464960,
  164403796498972740,
  164403796465434690,
  164403521688174660,
  164403659026489410,
  164403796498448580,
  164403796464910530,
  164403521687650500,
  164403659025965250,
  164403796498972740,
  164403796465434690,
  164403796498989120,
  164403796498989120,
  164403792205054020,
  164395000372936770,
  164403792205070400,
  164395000406491200,
  164403796498972740,
  164403796465434690,
  164403796498989120,
  164403796498989120,
  164403796498448580,
  164403796464910530,
  164403796498464960,
  164403796498464960,
  164403796498972740,
  164403796465434690,
  164403796532527170,
  164403796532527170,
  164403792205054020,
  164395000372936770,
  164403792238608450,
  164395000440029250,
  164403796498972740,
  164403796465434690,
  164403796498989120,
  164403796498989120,
  164403792205054020,
  164395000372936770,
  164403792205070400,
  164395000406491200,
  164403796498972740,
  164403796465434690,
  164403796532527170,
  164403796532527170,
  164403796498448580,
  164403796464910530,
  164403796532003010,
  164403796532003010,
  164403796498972740,
  164403796465434690,
  164403796498989120,
  164403796498989120,
  164403796498448580,
  164403796464910530,
  164403796498464960,
  164403796498464960,
  164403796498972740,
  164403796465434690,
  164403796465426500,
  164403796465426500,
  164403792205054020,
  164395000372936770,
  164403792171507780,
  164395000372928580,
  164403796498972740,
  164403796465434690,
  164403796465426500,
  164403796465426500,
  164403796498448580,
  164403796464910530,
  164403796464902340,
  164403796464902340,
  164403796498972740,
  164403796465434690,
  164403796498989120,
  164403796498989120,
  164403790056522180,
  164386204279390530,
  164403790056538560,
  164386204312944960,
  164403796498972740,
  164403796465434690,
  164403521688174660,
  164403659026489410,
  164403790056522180,
  164386204279390530,
  164403515245724100,
  164386066840445250,
  164403796498972740,
  164403796465434690,
  164403796498989120,
  164403796498989120,
  164403790056522180,
  164386204279390530,
  164403790056538560,
  164386204312944960,
  164403796498972740,
  164403796465434690,
  164403796532527170,
  164403796532527170,
  164403790056522180,
  164386204279390530,
  164403790090076610,
  164386204346483010,
  164403796498972740,
  164403796465434690,
  164403796498989120,
  164403796498989120,
  164403790056522180,
  164386204279390530,
  164403790056538560,
  164386204312944960,
  164403796498972740,
  164403796465434690,
  164403796465426500,
  164403796465426500,
  164403790056522180,
  164386204279390530,
  164403790022975940,
  164386204279382340,
  164403796498972740,
  164403796465434690,
  164403796498989120,
  164403796498989120,
  164403796498448580,
  164403796464910530,
  164403796498464960,
  164403796498464960,
  164403796498972740,
  164403796465434690,
  164403521688174660,
  164403659026489410,
  164403796498448580,
  164403796464910530,
  164403521687650500,
  164403659025965250,
  164403796498972740,
  164403796465434690,
  164403796498989120,
  164403796498989120,
  164412590444511300,
  164412590410973250,
  164412590444527680,
  164412590444527680,
  164403796498972740,
  164403796465434690,
  164403521688174660,
  164403659026489410,
  164412590444511300,
  164412590410973250,
  164412315633713220,
  164412452972027970,
  164403796498972740,
  164403796465434690,
  164403796498989120,
  164403796498989120,
  164403796498448580,
  164403796464910530,
  164403796498464960,
  164403796498464960,
  164403796498972740,
  164403796465434690,
  164403796498989120,
  164403796498989120,
  164412590444511300,
  164412590410973250,
  164412590444527680,
  164412590444527680,
  164403796498972740,
  164403796465434690,
  164403796532527170,
  164403796532527170,
  164403796498448580,
  164403796464910530,
  164403796532003010,
  164403796532003010,
  164403796498972740,
  164403796465434690,
  164403796498989120,
  164403796498989120,
  164403796498448580,
  164403796464910530,
  164403796498464960,
  164403796498464960,
  164403796498972740,
  164403796465434690,
  164403796532527170,
  164403796532527170,
  164412590444511300,
  164412590410973250,
  164412590478065730,
  164412590478065730,
  164403796498972740,
  164403796465434690,
  164403796498989120,
  164403796498989120,
  164412590444511300,
  164412590410973250,
  164412590444527680,
  164412590444527680,
  164403796498972740,
  164403796465434690,
  164403796465426500,
  164403796465426500,
  164403796498448580,
  164403796464910530,
  164403796464902340,
  164403796464902340,
  164403796498972740,
  164403796465434690,
  164403796465426500,
  164403796465426500,
  164412590444511300,
  164412590410973250,
  164412590410965060,
  164412590410965060,
  164403796498972740,
  164403796465434690,
  164403796498989120,
  164403796498989120,
  164403796498448580,
  164403796464910530,
  164403796498464960,
  164403796498464960,
  164403796498972740,
  164403796465434690,
  164403521688174660,
  164403659026489410,
  164403796498448580,
  164403796464910530,
  164403521687650500,
  164403659025965250,
  164403796498972740,
  164403796465434690,
  164403796498989120,
  164403796498989120,
  164403796498448580,
  164403796464910530,
  164403796498464960,
  164403796498464960,
  164403796498972740,
  164403796465434690,
  164403796532527170,
  164403796532527170,
  164403796498448580,
  164403796464910530,
  164403796532003010,
  164403796532003010,
  164403796498972740,
  164403796465434690,
  164403796498989120,
  164403796498989120,
  164403796498448580,
  164403796464910530,
  164403796498464960,
  164403796498464960,
  164403796498972740,
  164403796465434690,
  164403796465426500,
  164403796465426500,
  164403796498448580,
  164403796464910530,
  164403796464902340,
  164403796464902340,
  664280967447248109636,
  664280967447214571586,
  664280967447214563396,
  664280967447214563396,
  811818891235611639876,
  811818882443779522626,
  811818891235578093636,
  811818882443779514436,
  664280967447248109636,
  664280967447214571586,
  664280967172437311556,
  664280967309775626306,
  811818891235611639876,
  811818882443779522626,
  811818890960800841796,
  811818882306340577346,
  664280967447248109636,
  664280967447214571586,
  664280967447281664066,
  664280967447281664066,
  811818891235611639876,
  811818882443779522626,
  811818891235645194306,
  811818882443846615106,
  811818891239905558596,
  811818891239872020546,
  811818891239872012356,
  811818891239872012356,
  811818891239905034436,
  811818891239871496386,
  811818891239871488196,
  811818891239871488196,
  811818891239905558596,
  811818891239872020546,
  811818890965094760516,
  811818891102433075266,
  811818891239905034436,
  811818891239871496386,
  811818890965094236356,
  811818891102432551106,
  811818891239905558596,
  811818891239872020546,
  811818891239939113026,
  811818891239939113026,
  811818891239905034436,
  811818891239871496386,
  811818891239938588866,
  811818891239938588866,
  811818891239905558596,
  811818891239872020546,
  811818891239872012356,
  811818891239872012356,
  811818882443813060676,
  811818891235578101826,
  811818882443779514436,
  811818891235578093636,
  811818891239905558596,
  811818891239872020546,
  811818890965094760516,
  811818891102433075266,
  811818882443813060676,
  811818891235578101826,
  811818882169002262596,
  811818891098139156546,
  811818891239905558596,
  811818891239872020546,
  811818891239939113026,
  811818891239939113026,
  811818882443813060676,
  811818891235578101826,
  811818882443846615106,
  811818891235645194306,
  823350358085787713604,
  823350358085754175554,
  823350358085787729984,
  823350358085787729984,
  823350358081493794884,
  823350349289661677634,
  823350358081493811264,
  823350349289695232064,
  823350358085787713604,
  823350358085754175554,
  823350358085787729984,
  823350358085787729984,
  823350358085787713604,
  823350358085754175554,
  823350358085821268034,
  823350358085821268034,
  823350358081493794884,
  823350349289661677634,
  823350358081527349314,
  823350349289728770114,
  823350358085787713604,
  823350358085754175554,
  823350358085821268034,
  823350358085821268034,
  823350358085787713604,
  823350358085754175554,
  823350358085754167364,
  823350358085754167364,
  823350358081493794884,
  823350349289661677634,
  823350358081460248644,
  823350349289661669444]
def ccdq_t4_aaaaaaaa_anti1_cert_7 : List Nat := [823350358085787713604,
  823350358085754175554,
  823350358085754167364,
  823350358085754167364,
  823350358085787713604,
  823350358085754175554,
  823350357948348760134,
  823350357673537978434,
  823350358081493794884,
  823350349289661677634,
  823350357944054841414,
  823350348877445480514,
  823350358085787713604,
  823350358085754175554,
  823350357948348760134,
  823350357673537978434,
  823350358085787713604,
  823350358085754175554,
  823350357673470877764,
  823350357810876268614,
  823350358081493794884,
  823350349289661677634,
  823350357669176959044,
  823350349014783770694,
  823350358085787713604,
  823350358085754175554,
  823350357673470877764,
  823350357810876268614,
  823350358085787713604,
  823350358085754175554,
  823350357810976915524,
  823350357948315230274,
  823350358081493794884,
  823350349289661677634,
  823350357806682996804,
  823350349152222732354,
  823350358085787713604,
  823350358085754175554,
  823350357810976915524,
  823350357948315230274,
  823350358085787713604,
  823350358085754175554,
  823350358085787729984,
  823350358085787729984,
  823350358081493794884,
  823350349289661677634,
  823350358081493811264,
  823350349289695232064,
  673507154233869992004,
  673507154233836453954,
  673507154233870008384,
  673507154233870008384,
  673507154229576073284,
  673507145437743956034,
  673507154229576089664,
  673507145437777510464,
  823350358085787713604,
  823350358085754175554,
  823350357810976915524,
  823350357948315230274,
  823350358081493794884,
  823350349289661677634,
  823350357806682996804,
  823350349152222732354,
  673507154233869992004,
  673507154233836453954,
  673507153959059193924,
  673507154096397508674,
  673507154229576073284,
  673507145437743956034,
  673507153954765275204,
  673507145300305010754,
  823350358085787713604,
  823350358085754175554,
  823350358085787729984,
  823350358085787729984,
  823350358085787189444,
  823350358085753651394,
  823350358085787205824,
  823350358085787205824,
  673507154233869992004,
  673507154233836453954,
  673507154233870008384,
  673507154233870008384,
  673507154233869467844,
  673507154233835929794,
  673507154233869484224,
  673507154233869484224,
  823350358085787713604,
  823350358085754175554,
  823350357810976915524,
  823350357948315230274,
  823350358085787189444,
  823350358085753651394,
  823350357810976391364,
  823350357948314706114,
  673507154233869992004,
  673507154233836453954,
  673507153959059193924,
  673507154096397508674,
  673507154233869467844,
  673507154233835929794,
  673507153959058669764,
  673507154096396984514,
  823350358085787713604,
  823350358085754175554,
  823350358085787729984,
  823350358085787729984,
  823350358081493794884,
  823350349289661677634,
  823350358081493811264,
  823350349289695232064,
  673507154233869992004,
  673507154233836453954,
  673507154233870008384,
  673507154233870008384,
  673507154229576073284,
  673507145437743956034,
  673507154229576089664,
  673507145437777510464,
  823350358085787713604,
  823350358085754175554,
  823350358085787729984,
  823350358085787729984,
  823350358085787189444,
  823350358085753651394,
  823350358085787205824,
  823350358085787205824,
  673507154233869992004,
  673507154233836453954,
  673507154233870008384,
  673507154233870008384,
  673507154233869467844,
  673507154233835929794,
  673507154233869484224,
  673507154233869484224,
  823350358085787713604,
  823350358085754175554,
  823350358085821268034,
  823350358085821268034,
  823350358081493794884,
  823350349289661677634,
  823350358081527349314,
  823350349289728770114,
  673507154233869992004,
  673507154233836453954,
  673507154233903546434,
  673507154233903546434,
  673507154229576073284,
  673507145437743956034,
  673507154229609627714,
  673507145437811048514,
  823350358085787713604,
  823350358085754175554,
  823350358085787729984,
  823350358085787729984,
  823350358081493794884,
  823350349289661677634,
  823350358081493811264,
  823350349289695232064,
  673507154233869992004,
  673507154233836453954,
  673507154233870008384,
  673507154233870008384,
  673507154229576073284,
  673507145437743956034,
  673507154229576089664,
  673507145437777510464,
  823350358085787713604,
  823350358085754175554,
  823350358085821268034,
  823350358085821268034,
  823350358085787189444,
  823350358085753651394,
  823350358085820743874,
  823350358085820743874,
  673507154233869992004,
  673507154233836453954,
  673507154233903546434,
  673507154233903546434,
  673507154233869467844,
  673507154233835929794,
  673507154233903022274,
  673507154233903022274,
  823350358085787713604,
  823350358085754175554,
  823350358085787729984,
  823350358085787729984,
  823350358085787189444,
  823350358085753651394,
  823350358085787205824,
  823350358085787205824,
  673507154233869992004,
  673507154233836453954,
  673507154233870008384,
  673507154233870008384,
  673507154233869467844,
  673507154233835929794,
  673507154233869484224,
  673507154233869484224,
  823350358085787713604,
  823350358085754175554,
  823350358085754167364,
  823350358085754167364,
  823350358081493794884,
  823350349289661677634,
  823350358081460248644,
  823350349289661669444,
  673507154233869992004,
  673507154233836453954,
  673507154233836445764,
  673507154233836445764,
  673507154229576073284,
  673507145437743956034,
  673507154229542527044,
  673507145437743947844,
  823350358085787713604,
  823350358085754175554,
  823350358085754167364,
  823350358085754167364,
  823350358085787189444,
  823350358085753651394,
  823350358085753643204,
  823350358085753643204,
  673507154233869992004,
  673507154233836453954,
  673507154233836445764,
  673507154233836445764,
  673507154233869467844,
  673507154233835929794,
  673507154233835921604,
  673507154233835921604,
  823350358085787713604,
  823350358085754175554,
  823350358085787729984,
  823350358085787729984,
  823350358081493794884,
  823350349289661677634,
  823350358081493811264,
  823350349289695232064,
  821045078026527440964,
  821045078026493902914,
  821045078026527457344,
  821045078026527457344,
  821045078022233522244,
  821045069230401404994,
  821045078022233538624,
  821045069230434959424,
  821045078026527440964,
  821045078026493902914,
  821045078026493894724,
  821045078026493894724,
  821045078022233522244,
  821045069230401404994,
  821045078022199976004,
  821045069230401396804,
  823350358085787713604,
  823350358085754175554,
  823350358085787729984,
  823350358085787729984,
  823350358085787189444,
  823350358085753651394,
  823350358085787205824,
  823350358085787205824,
  821045078026527440964,
  821045078026493902914,
  821045078026527457344,
  821045078026527457344,
  821045078026526916804,
  821045078026493378754,
  821045078026526933184,
  821045078026526933184,
  821045078026527440964,
  821045078026493902914,
  821045078026493894724,
  821045078026493894724,
  821045078026526916804,
  821045078026493378754,
  821045078026493370564,
  821045078026493370564,
  823350358085787713604,
  823350358085754175554,
  823350358085821268034,
  823350358085821268034,
  823350358081493794884,
  823350349289661677634,
  823350358081527349314,
  823350349289728770114,
  821045078026527440964,
  821045078026493902914,
  821045078026560995394,
  821045078026560995394,
  821045078022233522244,
  821045069230401404994,
  821045078022267076674,
  821045069230468497474,
  823350358085787713604,
  823350358085754175554,
  823350358085821268034,
  823350358085821268034,
  823350358085787189444,
  823350358085753651394,
  823350358085820743874,
  823350358085820743874,
  821045078026527440964,
  821045078026493902914,
  821045078026560995394,
  821045078026560995394,
  821045078026526916804,
  821045078026493378754,
  821045078026560471234,
  821045078026560471234,
  823350358085787713604,
  823350358085754175554,
  823350358085754167364,
  823350358085754167364,
  823350358081493794884,
  823350349289661677634,
  823350358081460248644,
  823350349289661669444,
  821045078026527440964,
  821045078026493902914,
  821045078026493894724,
  821045078026493894724,
  821045078022233522244,
  821045069230401404994,
  821045078022199976004,
  821045069230401396804,
  821045078026527440964,
  821045078026493902914,
  821045077751716642884,
  821045077889054957634,
  821045078022233522244,
  821045069230401404994,
  821045077747422724164,
  821045069092962459714,
  823350358085787713604,
  823350358085754175554,
  823350358085754167364,
  823350358085754167364,
  823350358085787189444,
  823350358085753651394,
  823350358085753643204,
  823350358085753643204,
  821045078026527440964,
  821045078026493902914,
  821045078026493894724,
  821045078026493894724,
  821045078026526916804,
  821045078026493378754,
  821045078026493370564,
  821045078026493370564,
  821045078026527440964,
  821045078026493902914,
  821045077751716642884,
  821045077889054957634,
  821045078026526916804,
  821045078026493378754,
  821045077751716118724,
  821045077889054433474,
  823350358085787713604,
  823350358085754175554,
  823350357948348760134,
  823350357673537978434,
  823350358081493794884,
  823350349289661677634,
  823350357944054841414,
  823350348877445480514,
  821045078026527440964,
  821045078026493902914,
  821045077889088487494,
  821045077614277705794,
  821045078022233522244,
  821045069230401404994,
  821045077884794568774,
  821045068818185207874,
  821045078026527440964,
  821045078026493902914,
  821045078026560995394,
  821045078026560995394,
  821045078022233522244,
  821045069230401404994,
  821045078022267076674,
  821045069230468497474,
  823350358085787713604,
  823350358085754175554,
  823350357948348760134,
  823350357673537978434,
  823350358085787189444,
  823350358085753651394,
  823350357948348235974,
  823350357673537454274,
  821045078026527440964,
  821045078026493902914,
  821045077889088487494,
  821045077614277705794,
  821045078026526916804,
  821045078026493378754,
  821045077889087963334,
  821045077614277181634]
def ccdq_t4_aaaaaaaa_anti1_cert_8 : List Nat := [821045078026527440964,
  821045078026493902914,
  821045078026560995394,
  821045078026560995394,
  821045078026526916804,
  821045078026493378754,
  821045078026560471234,
  821045078026560471234,
  823350358085787713604,
  823350358085754175554,
  823350357673470877764,
  823350357810876268614,
  823350358081493794884,
  823350349289661677634,
  823350357669176959044,
  823350349014783770694,
  821045078026527440964,
  821045078026493902914,
  821045077614210605124,
  821045077751615995974,
  821045078022233522244,
  821045069230401404994,
  821045077609916686404,
  821045068955523498054,
  823350358085787713604,
  823350358085754175554,
  823350357673470877764,
  823350357810876268614,
  823350358085787189444,
  823350358085753651394,
  823350357673470353604,
  823350357810875744454,
  821045078026527440964,
  821045078026493902914,
  821045077614210605124,
  821045077751615995974,
  821045078026526916804,
  821045078026493378754,
  821045077614210080964,
  821045077751615471814,
  823350358085787713604,
  823350358085754175554,
  823350357810976915524,
  823350357948315230274,
  823350358081493794884,
  823350349289661677634,
  823350357806682996804,
  823350349152222732354,
  821045078026527440964,
  821045078026493902914,
  821045077751716642884,
  821045077889054957634,
  821045078022233522244,
  821045069230401404994,
  821045077747422724164,
  821045069092962459714,
  823350358085787713604,
  823350358085754175554,
  823350357810976915524,
  823350357948315230274,
  823350358085787189444,
  823350358085753651394,
  823350357810976391364,
  823350357948314706114,
  821045078026527440964,
  821045078026493902914,
  821045077751716642884,
  821045077889054957634,
  821045078026526916804,
  821045078026493378754,
  821045077751716118724,
  821045077889054433474,
  823350358085787713604,
  823350358085754175554,
  823350358085787729984,
  823350358085787729984,
  673507154233869992004,
  673507154233836453954,
  673507154233870008384,
  673507154233870008384,
  823350358085787713604,
  823350358085754175554,
  823350357810976915524,
  823350357948315230274,
  673507154233869992004,
  673507154233836453954,
  673507153959059193924,
  673507154096397508674,
  823350358085787713604,
  823350358085754175554,
  823350358085787729984,
  823350358085787729984,
  673507154233869992004,
  673507154233836453954,
  673507154233870008384,
  673507154233870008384,
  823350358085787713604,
  823350358085754175554,
  823350358085821268034,
  823350358085821268034,
  673507154233869992004,
  673507154233836453954,
  673507154233903546434,
  673507154233903546434,
  823350358085787713604,
  823350358085754175554,
  823350358085787729984,
  823350358085787729984,
  673507154233869992004,
  673507154233836453954,
  673507154233870008384,
  673507154233870008384,
  823350358085787713604,
  823350358085754175554,
  823350358085754167364,
  823350358085754167364,
  673507154233869992004,
  673507154233836453954,
  673507154233836445764,
  673507154233836445764,
  823350358085787713604,
  823350358085754175554,
  823350358085787729984,
  823350358085787729984,
  821045078026527440964,
  821045078026493902914,
  821045078026527457344,
  821045078026527457344,
  821045078026527440964,
  821045078026493902914,
  821045078026493894724,
  821045078026493894724,
  823350358085787713604,
  823350358085754175554,
  823350358085821268034,
  823350358085821268034,
  821045078026527440964,
  821045078026493902914,
  821045078026560995394,
  821045078026560995394,
  823350358085787713604,
  823350358085754175554,
  823350358085754167364,
  823350358085754167364,
  821045078026527440964,
  821045078026493902914,
  821045078026493894724,
  821045078026493894724,
  821045078026527440964,
  821045078026493902914,
  821045077751716642884,
  821045077889054957634,
  823350358085787713604,
  823350358085754175554,
  823350357948348760134,
  823350357673537978434,
  821045078026527440964,
  821045078026493902914,
  821045077889088487494,
  821045077614277705794,
  821045078026527440964,
  821045078026493902914,
  821045078026560995394,
  821045078026560995394,
  823350358085787713604,
  823350358085754175554,
  823350357673470877764,
  823350357810876268614,
  821045078026527440964,
  821045078026493902914,
  821045077614210605124,
  821045077751615995974,
  823350358085787713604,
  823350358085754175554,
  823350357810976915524,
  823350357948315230274,
  821045078026527440964,
  821045078026493902914,
  821045077751716642884,
  821045077889054957634,
  675812434293130264644,
  675812434293096726594,
  675812434293130281024,
  675812434293130281024,
  673507154233869992004,
  673507154233836453954,
  673507154233870008384,
  673507154233870008384,
  675812434293130264644,
  675812434293096726594,
  675812434018319466564,
  675812434155657781314,
  673507154233869992004,
  673507154233836453954,
  673507153959059193924,
  673507154096397508674,
  675812434293130264644,
  675812434293096726594,
  675812434293130281024,
  675812434293130281024,
  673507154233869992004,
  673507154233836453954,
  673507154233870008384,
  673507154233870008384,
  675812434293130264644,
  675812434293096726594,
  675812434293163819074,
  675812434293163819074,
  673507154233869992004,
  673507154233836453954,
  673507154233903546434,
  673507154233903546434,
  675812434293130264644,
  675812434293096726594,
  675812434293130281024,
  675812434293130281024,
  673507154233869992004,
  673507154233836453954,
  673507154233870008384,
  673507154233870008384,
  675812434293130264644,
  675812434293096726594,
  675812434293096718404,
  675812434293096718404,
  673507154233869992004,
  673507154233836453954,
  673507154233836445764,
  673507154233836445764,
  675812434293130264644,
  675812434293096726594,
  675812434293130281024,
  675812434293130281024,
  821045078026527440964,
  821045078026493902914,
  821045078026527457344,
  821045078026527457344,
  673507154233869992004,
  673507154233836453954,
  673507154233836445764,
  673507154233836445764,
  675812434293130264644,
  675812434293096726594,
  675812434293163819074,
  675812434293163819074,
  821045078026527440964,
  821045078026493902914,
  821045078026560995394,
  821045078026560995394,
  675812434293130264644,
  675812434293096726594,
  675812434293096718404,
  675812434293096718404,
  821045078026527440964,
  821045078026493902914,
  821045078026493894724,
  821045078026493894724,
  673507154233869992004,
  673507154233836453954,
  673507153959059193924,
  673507154096397508674,
  675812434293130264644,
  675812434293096726594,
  675812434155691311174,
  675812433880880529474,
  821045078026527440964,
  821045078026493902914,
  821045077889088487494,
  821045077614277705794,
  673507154233869992004,
  673507154233836453954,
  673507154233903546434,
  673507154233903546434,
  675812434293130264644,
  675812434293096726594,
  675812433880813428804,
  675812434018218819654,
  821045078026527440964,
  821045078026493902914,
  821045077614210605124,
  821045077751615995974,
  675812434293130264644,
  675812434293096726594,
  675812434018319466564,
  675812434155657781314,
  821045078026527440964,
  821045078026493902914,
  821045077751716642884,
  821045077889054957634]

/-- Check ccdq_t4_aaaaaaaa_anti1. Sign of aaaaaaaa under [0, 1, 3, 2, 5, 6, 4, 7]. -/
theorem ccdq_t4_aaaaaaaa_anti1 : isZero kinds [aᵥ, bᵥ, cᵥ, dᵥ, iₒ, jₒ, kₒ, lₒ] 100000000000000
    (ccdq_t4_aaaaaaaa ++ (Prog.outs [0, 1, 3, 2, 5, 6, 4, 7] (ccdq_t4_aaaaaaaa)))
    (ccdq_t4_aaaaaaaa_anti1_cert_0 ++ (ccdq_t4_aaaaaaaa_anti1_cert_1 ++ (ccdq_t4_aaaaaaaa_anti1_cert_2 ++ (ccdq_t4_aaaaaaaa_anti1_cert_3 ++ (ccdq_t4_aaaaaaaa_anti1_cert_4 ++ (ccdq_t4_aaaaaaaa_anti1_cert_5 ++ (ccdq_t4_aaaaaaaa_anti1_cert_6 ++ (ccdq_t4_aaaaaaaa_anti1_cert_7 ++ (ccdq_t4_aaaaaaaa_anti1_cert_8))))))))) = true := by decide +kernel

end Verif.Cert
