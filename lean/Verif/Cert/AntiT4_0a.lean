import Verif.Ein.Ops2
import Verif.Gen.SiCcdqT4_0

/-! Written by `/verif/tools/gen.py`. Checks of einsum programs. -/

set_option maxRecDepth 100000

namespace Verif.Cert

open Verif.Ein Verif.Ein.N


open Verif.Gen

def ccdq_t4_aaaaaaaa_anti0_cert_0 : List Nat := [2283003892736064,
  2283003892736064,
  2282866487337024,
  2282866487337024,
  2283003892736064,
  2283003892736064,
  2283003892727874,
  2283003892727874,
  162160790664388672,
  162160790664388672,
  162160790663864512,
  162160790663864512,
  162160790664388672,
  162160790664388672,
  162151996718850112,
  162151996718850112,
  9226217990700933184,
  9226217990700933184,
  9226217990667386944,
  9226217990667386944,
  9226217990700933184,
  9226217990700933184,
  9226217853295534144,
  9226217853295534144,
  9226217990700933184,
  9226217990700933184,
  9226217990633824324,
  9226217990633824324,
  164412590478073920,
  164412590478073920,
  164412453072674880,
  164412453072674880,
  164412590477549760,
  164412590477549760,
  164412453072150720,
  164412453072150720,
  164412590478073920,
  164412590478073920,
  164412453072674880,
  164412453072674880,
  164412590477549760,
  164412590477549760,
  164412453072150720,
  164412453072150720,
  164412590478073920,
  164412590478073920,
  164412590478065730,
  164412590478065730,
  164412590477549760,
  164412590477549760,
  164412590477541570,
  164412590477541570,
  164412590478073920,
  164412590478073920,
  164412590478065730,
  164412590478065730,
  164412590477549760,
  164412590477549760,
  164412590477541570,
  164412590477541570,
  164412590478073920,
  164412590478073920,
  164412453072674880,
  164412453072674880,
  164403796532535360,
  164403796532535360,
  164403659127136320,
  164403659127136320,
  164412590478073920,
  164412590478073920,
  164412453072674880,
  164412453072674880,
  164403796532535360,
  164403796532535360,
  164403659127136320,
  164403659127136320,
  164412590478073920,
  164412590478073920,
  164412590478065730,
  164412590478065730,
  164403796532535360,
  164403796532535360,
  164403796532527170,
  164403796532527170,
  164412590478073920,
  164412590478073920,
  164412590478065730,
  164412590478065730,
  164403796532535360,
  164403796532535360,
  164403796532527170,
  164403796532527170,
  811818900033884659776,
  811818900033884659776,
  811818900031737700416,
  811818900031737700416,
  811818900033884659776,
  811818900033884659776,
  811818900033884135616,
  811818900033884135616,
  811818900033884659776,
  811818900033884659776,
  811818882441699663936,
  811818882441699663936,
  823350366879766814784,
  823350366879766814784,
  823350366742361415744,
  823350366742361415744,
  821045086820506542144,
  821045086820506542144,
  821045086683101143104,
  821045086683101143104,
  673507163027849093184,
  673507163027849093184,
  673507162890443694144,
  673507162890443694144,
  823350366879766814784,
  823350366879766814784,
  823350366879766806594,
  823350366879766806594,
  821045086820506542144,
  821045086820506542144,
  821045086820506533954,
  821045086820506533954,
  673507163027849093184,
  673507163027849093184,
  673507163027849084994,
  673507163027849084994,
  821045086820506542144,
  821045086820506542144,
  821045086820472995904,
  821045086820472995904,
  821045086820506542144,
  821045086820506542144,
  821045086683101143104,
  821045086683101143104,
  821045086820506542144,
  821045086820506542144,
  821045086820439433284,
  821045086820439433284,
  821045086820506542144,
  821045086820506542144,
  821045086820506017984,
  821045086820506017984,
  673507163027849093184,
  673507163027849093184,
  673507163027848569024,
  673507163027848569024,
  675812443087109365824,
  675812443087109365824,
  675812443087108841664,
  675812443087108841664,
  823350366879766814784,
  823350366879766814784,
  823350366742361415744,
  823350366742361415744,
  823350366879766290624,
  823350366879766290624,
  823350366742360891584,
  823350366742360891584,
  823350366879766814784,
  823350366879766814784,
  823350366742361415744,
  823350366742361415744,
  823350366879766290624,
  823350366879766290624,
  823350366742360891584,
  823350366742360891584,
  673507163027849093184,
  673507163027849093184,
  673507162890443694144,
  673507162890443694144,
  673507163027848569024,
  673507163027848569024,
  673507162890443169984,
  673507162890443169984,
  823350366879766814784,
  823350366879766814784,
  823350366742361415744,
  823350366742361415744,
  823350366879766290624,
  823350366879766290624,
  823350366742360891584,
  823350366742360891584,
  823350366879766814784,
  823350366879766814784,
  823350366879766806594,
  823350366879766806594,
  823350366879766290624,
  823350366879766290624,
  823350366879766282434,
  823350366879766282434,
  823350366879766814784,
  823350366879766814784,
  823350366879766806594,
  823350366879766806594,
  823350366879766290624,
  823350366879766290624,
  823350366879766282434,
  823350366879766282434,
  673507163027849093184,
  673507163027849093184,
  673507163027849084994,
  673507163027849084994,
  673507163027848569024,
  673507163027848569024,
  673507163027848560834,
  673507163027848560834,
  823350366879766814784,
  823350366879766814784,
  823350366879766806594,
  823350366879766806594,
  823350366879766290624,
  823350366879766290624,
  823350366879766282434,
  823350366879766282434,
  821045086820506542144,
  821045086820506542144,
  821045086820472995904,
  821045086820472995904,
  821045086820506017984,
  821045086820506017984,
  821045086820472471744,
  821045086820472471744,
  821045086820506542144,
  821045086820506542144,
  821045086820472995904,
  821045086820472995904,
  821045086820506017984,
  821045086820506017984,
  821045086820472471744,
  821045086820472471744,
  823350366879766814784,
  823350366879766814784,
  823350366879733268544,
  823350366879733268544,
  823350366879766290624,
  823350366879766290624,
  823350366879732744384,
  823350366879732744384,
  821045086820506542144,
  821045086820506542144,
  821045086683101143104,
  821045086683101143104,
  821045086820506017984,
  821045086820506017984,
  821045086683100618944,
  821045086683100618944,
  821045086820506542144,
  821045086820506542144,
  821045086683101143104,
  821045086683101143104,
  821045086820506017984,
  821045086820506017984,
  821045086683100618944,
  821045086683100618944,
  823350366879766814784,
  823350366879766814784,
  823350366742361415744,
  823350366742361415744,
  823350366879766290624,
  823350366879766290624,
  823350366742360891584,
  823350366742360891584,
  821045086820506542144,
  821045086820506542144,
  821045086820439433284,
  821045086820439433284,
  821045086820506017984,
  821045086820506017984,
  821045086820438909124,
  821045086820438909124,
  821045086820506542144,
  821045086820506542144,
  821045086820439433284,
  821045086820439433284,
  821045086820506017984,
  821045086820506017984,
  821045086820438909124,
  821045086820438909124,
  823350366879766814784,
  823350366879766814784,
  823350366879699705924,
  823350366879699705924,
  823350366879766290624,
  823350366879766290624,
  823350366879699181764,
  823350366879699181764,
  821045086820506542144,
  821045086820506542144,
  821045078026561003584,
  821045078026561003584,
  673507163027849093184,
  673507163027849093184,
  673507154233903554624,
  673507154233903554624,
  675812443087109365824,
  675812443087109365824,
  675812434293163827264,
  675812434293163827264,
  823350366879766814784,
  823350366879766814784,
  823350366742361415744,
  823350366742361415744,
  823350358085821276224,
  823350358085821276224,
  823350357948415877184,
  823350357948415877184,
  823350366879766814784,
  823350366879766814784,
  823350366742361415744,
  823350366742361415744,
  823350358085821276224,
  823350358085821276224,
  823350357948415877184,
  823350357948415877184,
  673507163027849093184,
  673507163027849093184,
  673507162890443694144,
  673507162890443694144,
  673507154233903554624,
  673507154233903554624,
  673507154096498155584,
  673507154096498155584,
  823350366879766814784,
  823350366879766814784,
  823350366742361415744,
  823350366742361415744,
  823350358085821276224,
  823350358085821276224,
  823350357948415877184,
  823350357948415877184,
  823350366879766814784,
  823350366879766814784,
  823350366879766806594,
  823350366879766806594,
  823350358085821276224,
  823350358085821276224,
  823350358085821268034,
  823350358085821268034,
  823350366879766814784,
  823350366879766814784,
  823350366879766806594,
  823350366879766806594,
  823350358085821276224,
  823350358085821276224,
  823350358085821268034,
  823350358085821268034,
  673507163027849093184,
  673507163027849093184,
  673507163027849084994,
  673507163027849084994,
  673507154233903554624,
  673507154233903554624,
  673507154233903546434,
  673507154233903546434,
  823350366879766814784,
  823350366879766814784,
  823350366879766806594,
  823350366879766806594,
  823350358085821276224,
  823350358085821276224,
  823350358085821268034,
  823350358085821268034,
  821045086820506542144,
  821045086820506542144,
  821045086820472995904,
  821045086820472995904,
  821045078026561003584,
  821045078026561003584,
  821045078026527457344,
  821045078026527457344,
  821045086820506542144,
  821045086820506542144,
  821045086820472995904,
  821045086820472995904,
  821045078026561003584,
  821045078026561003584,
  821045078026527457344,
  821045078026527457344,
  823350366879766814784,
  823350366879766814784,
  823350366879733268544,
  823350366879733268544,
  823350358085821276224,
  823350358085821276224,
  823350358085787729984,
  823350358085787729984,
  821045086820506542144,
  821045086820506542144,
  821045086683101143104,
  821045086683101143104,
  821045078026561003584,
  821045078026561003584,
  821045077889155604544,
  821045077889155604544,
  821045086820506542144,
  821045086820506542144,
  821045086683101143104,
  821045086683101143104]
def ccdq_t4_aaaaaaaa_anti0_cert_1 : List Nat := [821045078026561003584,
  821045078026561003584,
  821045077889155604544,
  821045077889155604544,
  823350366879766814784,
  823350366879766814784,
  823350366742361415744,
  823350366742361415744,
  823350358085821276224,
  823350358085821276224,
  823350357948415877184,
  823350357948415877184,
  821045086820506542144,
  821045086820506542144,
  821045086820439433284,
  821045086820439433284,
  821045078026561003584,
  821045078026561003584,
  821045078026493894724,
  821045078026493894724,
  821045086820506542144,
  821045086820506542144,
  821045086820439433284,
  821045086820439433284,
  821045078026561003584,
  821045078026561003584,
  821045078026493894724,
  821045078026493894724,
  823350366879766814784,
  823350366879766814784,
  823350366879699705924,
  823350366879699705924,
  823350358085821276224,
  823350358085821276224,
  823350358085754167364,
  823350358085754167364,
  821045086820506542144,
  821045086820506542144,
  821045086818359582784,
  821045086818359582784,
  823350366879766814784,
  823350366879766814784,
  823350366742361415744,
  823350366742361415744,
  823350366877619855424,
  823350366877619855424,
  823350366740214456384,
  823350366740214456384,
  823350366879766814784,
  823350366879766814784,
  823350366742361415744,
  823350366742361415744,
  823350366877619855424,
  823350366877619855424,
  823350366740214456384,
  823350366740214456384,
  675812443087109365824,
  675812443087109365824,
  675812442949703966784,
  675812442949703966784,
  675812443084962406464,
  675812443084962406464,
  675812442947557007424,
  675812442947557007424,
  823350366879766814784,
  823350366879766814784,
  823350366879766806594,
  823350366879766806594,
  823350366877619855424,
  823350366877619855424,
  823350366877619847234,
  823350366877619847234,
  823350366879766814784,
  823350366879766814784,
  823350366879766806594,
  823350366879766806594,
  823350366877619855424,
  823350366877619855424,
  823350366877619847234,
  823350366877619847234,
  675812443087109365824,
  675812443087109365824,
  675812443087109357634,
  675812443087109357634,
  675812443084962406464,
  675812443084962406464,
  675812443084962398274,
  675812443084962398274,
  821045086820506542144,
  821045086820506542144,
  821045086820506017984,
  821045086820506017984,
  823350366879766814784,
  823350366879766814784,
  823350366742361415744,
  823350366742361415744,
  823350366879766290624,
  823350366879766290624,
  823350366742360891584,
  823350366742360891584,
  823350366879766814784,
  823350366879766814784,
  823350366742361415744,
  823350366742361415744,
  823350366879766290624,
  823350366879766290624,
  823350366742360891584,
  823350366742360891584,
  675812443087109365824,
  675812443087109365824,
  675812442949703966784,
  675812442949703966784,
  675812443087108841664,
  675812443087108841664,
  675812442949703442624,
  675812442949703442624,
  823350366879766814784,
  823350366879766814784,
  823350366879766806594,
  823350366879766806594,
  823350366879766290624,
  823350366879766290624,
  823350366879766282434,
  823350366879766282434,
  823350366879766814784,
  823350366879766814784,
  823350366879766806594,
  823350366879766806594,
  823350366879766290624,
  823350366879766290624,
  823350366879766282434,
  823350366879766282434,
  675812443087109365824,
  675812443087109365824,
  675812443087109357634,
  675812443087109357634,
  675812443087108841664,
  675812443087108841664,
  675812443087108833474,
  675812443087108833474,
  821045086820506542144,
  821045086820506542144,
  821045069228321546304,
  821045069228321546304,
  823350366879766814784,
  823350366879766814784,
  823350366742361415744,
  823350366742361415744,
  823350349287581818944,
  823350349287581818944,
  823350349150176419904,
  823350349150176419904,
  823350366879766814784,
  823350366879766814784,
  823350366742361415744,
  823350366742361415744,
  823350349287581818944,
  823350349287581818944,
  823350349150176419904,
  823350349150176419904,
  675812443087109365824,
  675812443087109365824,
  675812442949703966784,
  675812442949703966784,
  675812425494924369984,
  675812425494924369984,
  675812425357518970944,
  675812425357518970944,
  823350366879766814784,
  823350366879766814784,
  823350366879766806594,
  823350366879766806594,
  823350349287581818944,
  823350349287581818944,
  823350349287581810754,
  823350349287581810754,
  823350366879766814784,
  823350366879766814784,
  823350366879766806594,
  823350366879766806594,
  823350349287581818944,
  823350349287581818944,
  823350349287581810754,
  823350349287581810754,
  675812443087109365824,
  675812443087109365824,
  675812443087109357634,
  675812443087109357634,
  675812425494924369984,
  675812425494924369984,
  675812425494924361794,
  675812425494924361794,
  11531498049961205824,
  11531498049961205824,
  11531498049961197634,
  11531498049961197634,
  11531498047814246464,
  11531498047814246464,
  11531498047814238274,
  11531498047814238274,
  11531498049961205824,
  11531498049961205824,
  11531498049961197634,
  11531498049961197634,
  11531498049961205824,
  11531498049961205824,
  11531498049894096964,
  11531498049894096964,
  11531498047814246464,
  11531498047814246464,
  11531498047747137604,
  11531498047747137604,
  11531498049961205824,
  11531498049961205824,
  11531498049894096964,
  11531498049894096964,
  11531498049961205824,
  11531498049961205824,
  11531498049927659584,
  11531498049927659584,
  11531498047814246464,
  11531498047814246464,
  11531498047780700224,
  11531498047780700224,
  11531498049961205824,
  11531498049961205824,
  11531498049927659584,
  11531498049927659584,
  11531498049961205824,
  11531498049961205824,
  11531497637644345414,
  11531497637644345414,
  11531498047814246464,
  11531498047814246464,
  11531497635497386054,
  11531497635497386054,
  11531498049961205824,
  11531498049961205824,
  11531497637644345414,
  11531497637644345414,
  11531498049961205824,
  11531498049961205824,
  11531497775083315264,
  11531497775083315264,
  11531498047814246464,
  11531498047814246464,
  11531497772936355904,
  11531497772936355904,
  11531498049961205824,
  11531498049961205824,
  11531497775083315264,
  11531497775083315264,
  11531498049961205824,
  11531498049961205824,
  11531497912555806784,
  11531497912555806784,
  11531498047814246464,
  11531498047814246464,
  11531497910408847424,
  11531497910408847424,
  11531498049961205824,
  11531498049961205824,
  11531497912555806784,
  11531497912555806784,
  164412590478073920,
  164412590478073920,
  164412590478065730,
  164412590478065730,
  164412588331114560,
  164412588331114560,
  164412588331106370,
  164412588331106370,
  164412590478073920,
  164412590478073920,
  164412453072674880,
  164412453072674880,
  164412588331114560,
  164412588331114560,
  164412450925715520,
  164412450925715520,
  164412590478073920,
  164412590478073920,
  164412590478065730,
  164412590478065730,
  164412590477549760,
  164412590477549760,
  164412590477541570,
  164412590477541570,
  164412590478073920,
  164412590478073920,
  164412453072674880,
  164412453072674880,
  164412590477549760,
  164412590477549760,
  164412453072150720,
  164412453072150720,
  164412590478073920,
  164412590478073920,
  164412590478065730,
  164412590478065730,
  164412588331114560,
  164412588331114560,
  164412588331106370,
  164412588331106370,
  164412590478073920,
  164412590478073920,
  164412590478065730,
  164412590478065730,
  164412590477549760,
  164412590477549760,
  164412590477541570,
  164412590477541570,
  164412590478073920,
  164412590478073920,
  164412590410965060,
  164412590410965060,
  164412588331114560,
  164412588331114560,
  164412588264005700,
  164412588264005700,
  164412590478073920,
  164412590478073920,
  164412590478065730,
  164412590478065730,
  164412588331114560,
  164412588331114560,
  164412588331106370,
  164412588331106370,
  164412590478073920,
  164412590478073920,
  164412590410965060,
  164412590410965060,
  164412590477549760,
  164412590477549760,
  164412590410440900,
  164412590410440900,
  164412590478073920,
  164412590478073920,
  164412590478065730,
  164412590478065730,
  164412590477549760,
  164412590477549760,
  164412590477541570,
  164412590477541570,
  164412590478073920,
  164412590478073920,
  164412590444527680,
  164412590444527680,
  164412588331114560,
  164412588331114560,
  164412588297568320,
  164412588297568320,
  164412590478073920,
  164412590478073920,
  164412590444527680,
  164412590444527680,
  164412590477549760,
  164412590477549760,
  164412590444003520,
  164412590444003520,
  164412590478073920,
  164412590478073920,
  164412590478065730,
  164412590478065730,
  164412586183106880,
  164412586183106880,
  164412586183098690,
  164412586183098690,
  164412590478073920,
  164412590478073920,
  164412453072674880,
  164412453072674880,
  164412586183106880,
  164412586183106880,
  164412448777707840,
  164412448777707840,
  164412590478073920,
  164412590478073920,
  164412590478065730,
  164412590478065730,
  164412586183106880,
  164412586183106880,
  164412586183098690,
  164412586183098690,
  164412590478073920,
  164412590478073920,
  164412590410965060,
  164412590410965060,
  164412586183106880,
  164412586183106880,
  164412586115998020,
  164412586115998020,
  164412590478073920,
  164412590478073920,
  164412590478065730,
  164412590478065730,
  164412586183106880,
  164412586183106880,
  164412586183098690,
  164412586183098690]
def ccdq_t4_aaaaaaaa_anti0_cert_2 : List Nat := [164412590478073920,
  164412590478073920,
  164412590444527680,
  164412590444527680,
  164412586183106880,
  164412586183106880,
  164412586149560640,
  164412586149560640,
  164412590478073920,
  164412590478073920,
  164412590478065730,
  164412590478065730,
  164412590477549760,
  164412590477549760,
  164412590477541570,
  164412590477541570,
  164412590478073920,
  164412590478073920,
  164412453072674880,
  164412453072674880,
  164412590477549760,
  164412590477549760,
  164412453072150720,
  164412453072150720,
  164412590478073920,
  164412590478073920,
  164412590478065730,
  164412590478065730,
  164403796532535360,
  164403796532535360,
  164403796532527170,
  164403796532527170,
  164412590478073920,
  164412590478073920,
  164412453072674880,
  164412453072674880,
  164403796532535360,
  164403796532535360,
  164403659127136320,
  164403659127136320,
  164412590478073920,
  164412590478073920,
  164412590478065730,
  164412590478065730,
  164412590477549760,
  164412590477549760,
  164412590477541570,
  164412590477541570,
  164412590478073920,
  164412590478073920,
  164412590478065730,
  164412590478065730,
  164403796532535360,
  164403796532535360,
  164403796532527170,
  164403796532527170,
  164412590478073920,
  164412590478073920,
  164412590410965060,
  164412590410965060,
  164412590477549760,
  164412590477549760,
  164412590410440900,
  164412590410440900,
  164412590478073920,
  164412590478073920,
  164412590478065730,
  164412590478065730,
  164412590477549760,
  164412590477549760,
  164412590477541570,
  164412590477541570,
  164412590478073920,
  164412590478073920,
  164412590410965060,
  164412590410965060,
  164403796532535360,
  164403796532535360,
  164403796465426500,
  164403796465426500,
  164412590478073920,
  164412590478073920,
  164412590478065730,
  164412590478065730,
  164403796532535360,
  164403796532535360,
  164403796532527170,
  164403796532527170,
  164412590478073920,
  164412590478073920,
  164412590444527680,
  164412590444527680,
  164412590477549760,
  164412590477549760,
  164412590444003520,
  164412590444003520,
  164412590478073920,
  164412590478073920,
  164412590444527680,
  164412590444527680,
  164403796532535360,
  164403796532535360,
  164403796498989120,
  164403796498989120,
  164412590478073920,
  164412590478073920,
  164412590478065730,
  164412590478065730,
  164412590477549760,
  164412590477549760,
  164412590477541570,
  164412590477541570,
  164412590478073920,
  164412590478073920,
  164412453072674880,
  164412453072674880,
  164412590477549760,
  164412590477549760,
  164412453072150720,
  164412453072150720,
  164412590478073920,
  164412590478073920,
  164412590478065730,
  164412590478065730,
  164412590477549760,
  164412590477549760,
  164412590477541570,
  164412590477541570,
  164412590478073920,
  164412590478073920,
  164412590410965060,
  164412590410965060,
  164412590477549760,
  164412590477549760,
  164412590410440900,
  164412590410440900,
  164412590478073920,
  164412590478073920,
  164412590478065730,
  164412590478065730,
  164412590477549760,
  164412590477549760,
  164412590477541570,
  164412590477541570,
  164412590478073920,
  164412590478073920,
  164412590444527680,
  164412590444527680,
  164412590477549760,
  164412590477549760,
  164412590444003520,
  164412590444003520,
  811818900033884659776,
  811818900033884659776,
  811818900033851113536,
  811818900033851113536,
  811818900031737700416,
  811818900031737700416,
  811818900031704154176,
  811818900031704154176,
  811818900033884659776,
  811818900033884659776,
  811818899896479260736,
  811818899896479260736,
  811818900031737700416,
  811818900031737700416,
  811818899894332301376,
  811818899894332301376,
  811818900033884659776,
  811818900033884659776,
  811818900033817550916,
  811818900033817550916,
  811818900031737700416,
  811818900031737700416,
  811818900031670591556,
  811818900031670591556,
  811818900033884659776,
  811818900033884659776,
  811818900033851113536,
  811818900033851113536,
  811818900033884135616,
  811818900033884135616,
  811818900033850589376,
  811818900033850589376,
  811818900033884659776,
  811818900033884659776,
  811818899896479260736,
  811818899896479260736,
  811818900033884135616,
  811818900033884135616,
  811818899896478736576,
  811818899896478736576,
  811818900033884659776,
  811818900033884659776,
  811818900033817550916,
  811818900033817550916,
  811818900033884135616,
  811818900033884135616,
  811818900033817026756,
  811818900033817026756,
  811818900033884659776,
  811818900033884659776,
  811818900033851113536,
  811818900033851113536,
  811818882441699663936,
  811818882441699663936,
  811818882441666117696,
  811818882441666117696,
  811818900033884659776,
  811818900033884659776,
  811818899896479260736,
  811818899896479260736,
  811818882441699663936,
  811818882441699663936,
  811818882304294264896,
  811818882304294264896,
  811818900033884659776,
  811818900033884659776,
  811818900033817550916,
  811818900033817550916,
  811818882441699663936,
  811818882441699663936,
  811818882441632555076,
  811818882441632555076,
  823350366879766814784,
  823350366879766814784,
  823350366879766806594,
  823350366879766806594,
  823350366877619855424,
  823350366877619855424,
  823350366877619847234,
  823350366877619847234,
  823350366879766814784,
  823350366879766814784,
  823350366879766806594,
  823350366879766806594,
  823350366879766814784,
  823350366879766814784,
  823350366879699705924,
  823350366879699705924,
  823350366877619855424,
  823350366877619855424,
  823350366877552746564,
  823350366877552746564,
  823350366879766814784,
  823350366879766814784,
  823350366879699705924,
  823350366879699705924,
  823350366879766814784,
  823350366879766814784,
  823350366879733268544,
  823350366879733268544,
  823350366877619855424,
  823350366877619855424,
  823350366877586309184,
  823350366877586309184,
  823350366879766814784,
  823350366879766814784,
  823350366879733268544,
  823350366879733268544,
  823350366879766814784,
  823350366879766814784,
  823350366467449954374,
  823350366467449954374,
  823350366877619855424,
  823350366877619855424,
  823350366465302995014,
  823350366465302995014,
  823350366879766814784,
  823350366879766814784,
  823350366467449954374,
  823350366467449954374,
  823350366879766814784,
  823350366879766814784,
  823350366604888924224,
  823350366604888924224,
  823350366877619855424,
  823350366877619855424,
  823350366602741964864,
  823350366602741964864,
  823350366879766814784,
  823350366879766814784,
  823350366604888924224,
  823350366604888924224,
  823350366879766814784,
  823350366879766814784,
  823350366742361415744,
  823350366742361415744,
  823350366877619855424,
  823350366877619855424,
  823350366740214456384,
  823350366740214456384,
  823350366879766814784,
  823350366879766814784,
  823350366742361415744,
  823350366742361415744,
  823350366879766814784,
  823350366879766814784,
  823350366879766806594,
  823350366879766806594,
  823350366877619855424,
  823350366877619855424,
  823350366877619847234,
  823350366877619847234,
  673507163027849093184,
  673507163027849093184,
  673507163027849084994,
  673507163027849084994,
  673507163025702133824,
  673507163025702133824,
  673507163025702125634,
  673507163025702125634,
  823350366879766814784,
  823350366879766814784,
  823350366742361415744,
  823350366742361415744,
  823350366877619855424,
  823350366877619855424,
  823350366740214456384,
  823350366740214456384,
  673507163027849093184,
  673507163027849093184,
  673507162890443694144,
  673507162890443694144,
  673507163025702133824,
  673507163025702133824,
  673507162888296734784,
  673507162888296734784,
  823350366879766814784,
  823350366879766814784,
  823350366879766806594,
  823350366879766806594,
  823350366879766290624,
  823350366879766290624,
  823350366879766282434,
  823350366879766282434,
  673507163027849093184,
  673507163027849093184,
  673507163027849084994,
  673507163027849084994,
  673507163027848569024,
  673507163027848569024,
  673507163027848560834,
  673507163027848560834,
  823350366879766814784,
  823350366879766814784,
  823350366742361415744,
  823350366742361415744,
  823350366879766290624,
  823350366879766290624,
  823350366742360891584,
  823350366742360891584,
  673507163027849093184,
  673507163027849093184,
  673507162890443694144,
  673507162890443694144,
  673507163027848569024,
  673507163027848569024,
  673507162890443169984,
  673507162890443169984,
  823350366879766814784,
  823350366879766814784,
  823350366879766806594,
  823350366879766806594,
  823350366877619855424,
  823350366877619855424,
  823350366877619847234,
  823350366877619847234,
  673507163027849093184,
  673507163027849093184,
  673507163027849084994,
  673507163027849084994,
  673507163025702133824,
  673507163025702133824,
  673507163025702125634,
  673507163025702125634,
  823350366879766814784,
  823350366879766814784,
  823350366879766806594,
  823350366879766806594,
  823350366879766290624,
  823350366879766290624,
  823350366879766282434,
  823350366879766282434,
  673507163027849093184,
  673507163027849093184,
  673507163027849084994,
  673507163027849084994,
  673507163027848569024,
  673507163027848569024,
  673507163027848560834,
  673507163027848560834,
  823350366879766814784,
  823350366879766814784,
  823350366879699705924,
  823350366879699705924,
  823350366877619855424,
  823350366877619855424,
  823350366877552746564,
  823350366877552746564]
def ccdq_t4_aaaaaaaa_anti0_cert_3 : List Nat := [673507163027849093184,
  673507163027849093184,
  673507163027781984324,
  673507163027781984324,
  673507163025702133824,
  673507163025702133824,
  673507163025635024964,
  673507163025635024964,
  823350366879766814784,
  823350366879766814784,
  823350366879766806594,
  823350366879766806594,
  823350366877619855424,
  823350366877619855424,
  823350366877619847234,
  823350366877619847234,
  673507163027849093184,
  673507163027849093184,
  673507163027849084994,
  673507163027849084994,
  673507163025702133824,
  673507163025702133824,
  673507163025702125634,
  673507163025702125634,
  823350366879766814784,
  823350366879766814784,
  823350366879699705924,
  823350366879699705924,
  823350366879766290624,
  823350366879766290624,
  823350366879699181764,
  823350366879699181764,
  673507163027849093184,
  673507163027849093184,
  673507163027781984324,
  673507163027781984324,
  673507163027848569024,
  673507163027848569024,
  673507163027781460164,
  673507163027781460164,
  823350366879766814784,
  823350366879766814784,
  823350366879766806594,
  823350366879766806594,
  823350366879766290624,
  823350366879766290624,
  823350366879766282434,
  823350366879766282434,
  673507163027849093184,
  673507163027849093184,
  673507163027849084994,
  673507163027849084994,
  673507163027848569024,
  673507163027848569024,
  673507163027848560834,
  673507163027848560834,
  823350366879766814784,
  823350366879766814784,
  823350366879733268544,
  823350366879733268544,
  823350366877619855424,
  823350366877619855424,
  823350366877586309184,
  823350366877586309184,
  673507163027849093184,
  673507163027849093184,
  673507163027815546944,
  673507163027815546944,
  673507163025702133824,
  673507163025702133824,
  673507163025668587584,
  673507163025668587584,
  823350366879766814784,
  823350366879766814784,
  823350366879733268544,
  823350366879733268544,
  823350366879766290624,
  823350366879766290624,
  823350366879732744384,
  823350366879732744384,
  673507163027849093184,
  673507163027849093184,
  673507163027815546944,
  673507163027815546944,
  673507163027848569024,
  673507163027848569024,
  673507163027815022784,
  673507163027815022784,
  823350366879766814784,
  823350366879766814784,
  823350366879766806594,
  823350366879766806594,
  823350366877619855424,
  823350366877619855424,
  823350366877619847234,
  823350366877619847234,
  821045086820506542144,
  821045086820506542144,
  821045086820506533954,
  821045086820506533954,
  821045086818359582784,
  821045086818359582784,
  821045086818359574594,
  821045086818359574594,
  821045086820506542144,
  821045086820506542144,
  821045086820472995904,
  821045086820472995904,
  821045086818359582784,
  821045086818359582784,
  821045086818326036544,
  821045086818326036544,
  823350366879766814784,
  823350366879766814784,
  823350366879766806594,
  823350366879766806594,
  823350366879766290624,
  823350366879766290624,
  823350366879766282434,
  823350366879766282434,
  821045086820506542144,
  821045086820506542144,
  821045086820506533954,
  821045086820506533954,
  821045086820506017984,
  821045086820506017984,
  821045086820506009794,
  821045086820506009794,
  821045086820506542144,
  821045086820506542144,
  821045086820472995904,
  821045086820472995904,
  821045086820506017984,
  821045086820506017984,
  821045086820472471744,
  821045086820472471744,
  823350366879766814784,
  823350366879766814784,
  823350366879699705924,
  823350366879699705924,
  823350366877619855424,
  823350366877619855424,
  823350366877552746564,
  823350366877552746564,
  821045086820506542144,
  821045086820506542144,
  821045086820439433284,
  821045086820439433284,
  821045086818359582784,
  821045086818359582784,
  821045086818292473924,
  821045086818292473924,
  823350366879766814784,
  823350366879766814784,
  823350366879699705924,
  823350366879699705924,
  823350366879766290624,
  823350366879766290624,
  823350366879699181764,
  823350366879699181764,
  821045086820506542144,
  821045086820506542144,
  821045086820439433284,
  821045086820439433284,
  821045086820506017984,
  821045086820506017984,
  821045086820438909124,
  821045086820438909124,
  823350366879766814784,
  823350366879766814784,
  823350366879733268544,
  823350366879733268544,
  823350366877619855424,
  823350366877619855424,
  823350366877586309184,
  823350366877586309184,
  821045086820506542144,
  821045086820506542144,
  821045086820472995904,
  821045086820472995904,
  821045086818359582784,
  821045086818359582784,
  821045086818326036544,
  821045086818326036544,
  821045086820506542144,
  821045086820506542144,
  821045086683101143104,
  821045086683101143104,
  821045086818359582784,
  821045086818359582784,
  821045086680954183744,
  821045086680954183744,
  823350366879766814784,
  823350366879766814784,
  823350366879733268544,
  823350366879733268544,
  823350366879766290624,
  823350366879766290624,
  823350366879732744384,
  823350366879732744384,
  821045086820506542144,
  821045086820506542144,
  821045086820472995904,
  821045086820472995904,
  821045086820506017984,
  821045086820506017984,
  821045086820472471744,
  821045086820472471744,
  821045086820506542144,
  821045086820506542144,
  821045086683101143104,
  821045086683101143104,
  821045086820506017984,
  821045086820506017984,
  821045086683100618944,
  821045086683100618944,
  823350366879766814784,
  823350366879766814784,
  823350366467449954374,
  823350366467449954374,
  823350366877619855424,
  823350366877619855424,
  823350366465302995014,
  823350366465302995014,
  821045086820506542144,
  821045086820506542144,
  821045086408189681734,
  821045086408189681734,
  821045086818359582784,
  821045086818359582784,
  821045086406042722374,
  821045086406042722374,
  821045086820506542144,
  821045086820506542144,
  821045086820439433284,
  821045086820439433284,
  821045086818359582784,
  821045086818359582784,
  821045086818292473924,
  821045086818292473924,
  823350366879766814784,
  823350366879766814784,
  823350366467449954374,
  823350366467449954374,
  823350366879766290624,
  823350366879766290624,
  823350366467449430214,
  823350366467449430214,
  821045086820506542144,
  821045086820506542144,
  821045086408189681734,
  821045086408189681734,
  821045086820506017984,
  821045086820506017984,
  821045086408189157574,
  821045086408189157574,
  821045086820506542144,
  821045086820506542144,
  821045086820439433284,
  821045086820439433284,
  821045086820506017984,
  821045086820506017984,
  821045086820438909124,
  821045086820438909124,
  823350366879766814784,
  823350366879766814784,
  823350366604888924224,
  823350366604888924224,
  823350366877619855424,
  823350366877619855424,
  823350366602741964864,
  823350366602741964864,
  821045086820506542144,
  821045086820506542144,
  821045086545628651584,
  821045086545628651584,
  821045086818359582784,
  821045086818359582784,
  821045086543481692224,
  821045086543481692224,
  823350366879766814784,
  823350366879766814784,
  823350366604888924224,
  823350366604888924224,
  823350366879766290624,
  823350366879766290624,
  823350366604888400064,
  823350366604888400064,
  821045086820506542144,
  821045086820506542144,
  821045086545628651584,
  821045086545628651584,
  821045086820506017984,
  821045086820506017984,
  821045086545628127424,
  821045086545628127424,
  823350366879766814784,
  823350366879766814784,
  823350366742361415744,
  823350366742361415744,
  823350366877619855424,
  823350366877619855424,
  823350366740214456384,
  823350366740214456384,
  821045086820506542144,
  821045086820506542144,
  821045086683101143104,
  821045086683101143104,
  821045086818359582784,
  821045086818359582784,
  821045086680954183744,
  821045086680954183744,
  823350366879766814784,
  823350366879766814784,
  823350366742361415744,
  823350366742361415744,
  823350366879766290624,
  823350366879766290624,
  823350366742360891584,
  823350366742360891584,
  821045086820506542144,
  821045086820506542144,
  821045086683101143104,
  821045086683101143104,
  821045086820506017984,
  821045086820506017984,
  821045086683100618944,
  821045086683100618944,
  823350366879766814784,
  823350366879766814784,
  823350366879766806594,
  823350366879766806594,
  673507163027849093184,
  673507163027849093184,
  673507163027849084994,
  673507163027849084994,
  823350366879766814784,
  823350366879766814784,
  823350366742361415744,
  823350366742361415744,
  673507163027849093184,
  673507163027849093184,
  673507162890443694144,
  673507162890443694144,
  823350366879766814784,
  823350366879766814784,
  823350366879766806594,
  823350366879766806594,
  673507163027849093184,
  673507163027849093184,
  673507163027849084994,
  673507163027849084994,
  823350366879766814784,
  823350366879766814784,
  823350366879699705924,
  823350366879699705924,
  673507163027849093184,
  673507163027849093184,
  673507163027781984324,
  673507163027781984324,
  823350366879766814784,
  823350366879766814784,
  823350366879766806594,
  823350366879766806594,
  673507163027849093184,
  673507163027849093184,
  673507163027849084994,
  673507163027849084994,
  823350366879766814784,
  823350366879766814784,
  823350366879733268544,
  823350366879733268544,
  673507163027849093184,
  673507163027849093184,
  673507163027815546944,
  673507163027815546944,
  823350366879766814784,
  823350366879766814784,
  823350366879766806594,
  823350366879766806594,
  821045086820506542144,
  821045086820506542144,
  821045086820506533954,
  821045086820506533954,
  821045086820506542144,
  821045086820506542144,
  821045086820472995904,
  821045086820472995904,
  823350366879766814784,
  823350366879766814784,
  823350366879699705924,
  823350366879699705924,
  821045086820506542144,
  821045086820506542144,
  821045086820439433284,
  821045086820439433284,
  823350366879766814784,
  823350366879766814784,
  823350366879733268544,
  823350366879733268544]
def ccdq_t4_aaaaaaaa_anti0_cert_4 : List Nat := [821045086820506542144,
  821045086820506542144,
  821045086820472995904,
  821045086820472995904,
  821045086820506542144,
  821045086820506542144,
  821045086683101143104,
  821045086683101143104,
  823350366879766814784,
  823350366879766814784,
  823350366467449954374,
  823350366467449954374,
  821045086820506542144,
  821045086820506542144,
  821045086408189681734,
  821045086408189681734,
  821045086820506542144,
  821045086820506542144,
  821045086820439433284,
  821045086820439433284,
  823350366879766814784,
  823350366879766814784,
  823350366604888924224,
  823350366604888924224,
  821045086820506542144,
  821045086820506542144,
  821045086545628651584,
  821045086545628651584,
  823350366879766814784,
  823350366879766814784,
  823350366742361415744,
  823350366742361415744,
  821045086820506542144,
  821045086820506542144,
  821045086683101143104,
  821045086683101143104,
  823350366879766814784,
  823350366879766814784,
  823350366879766806594,
  823350366879766806594,
  673507163027849093184,
  673507163027849093184,
  673507163027849084994,
  673507163027849084994,
  823350366879766814784,
  823350366879766814784,
  823350366742361415744,
  823350366742361415744,
  673507163027849093184,
  673507163027849093184,
  673507162890443694144,
  673507162890443694144,
  823350366879766814784,
  823350366879766814784,
  823350366879766806594,
  823350366879766806594,
  673507163027849093184,
  673507163027849093184,
  673507163027849084994,
  673507163027849084994,
  823350366879766814784,
  823350366879766814784,
  823350366879699705924,
  823350366879699705924,
  673507163027849093184,
  673507163027849093184,
  673507163027781984324,
  673507163027781984324,
  823350366879766814784,
  823350366879766814784,
  823350366879766806594,
  823350366879766806594,
  673507163027849093184,
  673507163027849093184,
  673507163027849084994,
  673507163027849084994,
  823350366879766814784,
  823350366879766814784,
  823350366879733268544,
  823350366879733268544,
  673507163027849093184,
  673507163027849093184,
  673507163027815546944,
  673507163027815546944,
  823350366879766814784,
  823350366879766814784,
  823350366879766806594,
  823350366879766806594,
  821045086820506542144,
  821045086820506542144,
  821045086820506533954,
  821045086820506533954,
  821045086820506542144,
  821045086820506542144,
  821045086820472995904,
  821045086820472995904,
  823350366879766814784,
  823350366879766814784,
  823350366879699705924,
  823350366879699705924,
  821045086820506542144,
  821045086820506542144,
  821045086820439433284,
  821045086820439433284,
  823350366879766814784,
  823350366879766814784,
  823350366879733268544,
  823350366879733268544,
  821045086820506542144,
  821045086820506542144,
  821045086820472995904,
  821045086820472995904,
  821045086820506542144,
  821045086820506542144,
  821045086683101143104,
  821045086683101143104,
  823350366879766814784,
  823350366879766814784,
  823350366467449954374,
  823350366467449954374,
  821045086820506542144,
  821045086820506542144,
  821045086408189681734,
  821045086408189681734,
  821045086820506542144,
  821045086820506542144,
  821045086820439433284,
  821045086820439433284,
  823350366879766814784,
  823350366879766814784,
  823350366604888924224,
  823350366604888924224,
  821045086820506542144,
  821045086820506542144,
  821045086545628651584,
  821045086545628651584,
  823350366879766814784,
  823350366879766814784,
  823350366742361415744,
  823350366742361415744,
  821045086820506542144,
  821045086820506542144,
  821045086683101143104,
  821045086683101143104,
  2282864339329344,
  2282862192894144,
  2283001744728384,
  2282999598293184,
  2282864339329344,
  2282862192894144,
  2282864339321154,
  2282862192885954,
  162160651110981952,
  162160648964546752,
  162160651112030272,
  162160651112030272,
  162160651110981952,
  162160648964546752,
  162143063219904832,
  162151852872048832,
  9226217851147526464,
  9226217849001091264,
  9226217851080433984,
  9226217711562145984,
  9226217851147526464,
  9226217849001091264,
  9226217988552925504,
  9226217986406490304,
  9226217851147526464,
  9226217849001091264,
  9226217851046863174,
  9226217574123184324,
  164412450924667200,
  164412448778232000,
  164412588330066240,
  164412586183631040,
  164412450925715520,
  164412450925715520,
  164412588331114560,
  164412588331114560,
  164412450924667200,
  164412448778232000,
  164412588330066240,
  164412586183631040,
  164412450925715520,
  164412450925715520,
  164412588331114560,
  164412588331114560,
  164412450924667200,
  164412448778232000,
  164412450924659010,
  164412448778223810,
  164412450925715520,
  164412450925715520,
  164412450925707330,
  164412450925707330,
  164412450924667200,
  164412448778232000,
  164412450924659010,
  164412448778223810,
  164412450925715520,
  164412450925715520,
  164412450925707330,
  164412450925707330,
  164412450924667200,
  164412448778232000,
  164412588330066240,
  164412586183631040,
  164394863033590080,
  164403652685734080,
  164395000438989120,
  164403790091133120,
  164412450924667200,
  164412448778232000,
  164412588330066240,
  164412586183631040,
  164394863033590080,
  164403652685734080,
  164395000438989120,
  164403790091133120,
  164412450924667200,
  164412448778232000,
  164412450924659010,
  164412448778223810,
  164394863033590080,
  164403652685734080,
  164394863033581890,
  164403652685725890,
  164412450924667200,
  164412448778232000,
  164412450924659010,
  164412448778223810,
  164394863033590080,
  164403652685734080,
  164394863033581890,
  164403652685725890,
  811818899894331253056,
  811818899892184817856,
  811818899892184293696,
  811818899892184293696,
  811818899894331253056,
  811818899892184817856,
  811818899894332301376,
  811818899894332301376,
  811818899894331253056,
  811818899892184817856,
  811818873506053759296,
  811818882299998773696,
  823350366740213408064,
  823350366738066972864,
  823350366877618807104,
  823350366875472371904,
  821045086680953135424,
  821045086678806700224,
  821045086818358534464,
  821045086816212099264,
  673507162888295686464,
  673507162886149251264,
  673507163025701085504,
  673507163023554650304,
  823350366740213408064,
  823350366738066972864,
  823350366740213399874,
  823350366738066964674,
  821045086680953135424,
  821045086678806700224,
  821045086680953127234,
  821045086678806692034,
  673507162888295686464,
  673507162886149251264,
  673507162888295678274,
  673507162886149243074,
  821045086680953135424,
  821045086678806700224,
  821045086680886042944,
  821045086541367754944,
  821045086680953135424,
  821045086678806700224,
  821045086818358534464,
  821045086816212099264,
  821045086680953135424,
  821045086678806700224,
  821045086680852472134,
  821045086403928793284,
  821045086680953135424,
  821045086678806700224,
  821045086680954183744,
  821045086680954183744,
  673507162888295686464,
  673507162886149251264,
  673507162888296734784,
  673507162888296734784,
  675812442947555959104,
  675812442945409523904,
  675812442947557007424,
  675812442947557007424,
  823350366740213408064,
  823350366738066972864,
  823350366877618807104,
  823350366875472371904,
  823350366740214456384,
  823350366740214456384,
  823350366877619855424,
  823350366877619855424,
  823350366740213408064,
  823350366738066972864,
  823350366877618807104,
  823350366875472371904,
  823350366740214456384,
  823350366740214456384,
  823350366877619855424,
  823350366877619855424,
  673507162888295686464,
  673507162886149251264,
  673507163025701085504,
  673507163023554650304,
  673507162888296734784,
  673507162888296734784,
  673507163025702133824,
  673507163025702133824,
  823350366740213408064,
  823350366738066972864,
  823350366877618807104,
  823350366875472371904,
  823350366740214456384,
  823350366740214456384,
  823350366877619855424,
  823350366877619855424,
  823350366740213408064,
  823350366738066972864,
  823350366740213399874,
  823350366738066964674,
  823350366740214456384,
  823350366740214456384,
  823350366740214448194,
  823350366740214448194,
  823350366740213408064,
  823350366738066972864,
  823350366740213399874,
  823350366738066964674,
  823350366740214456384,
  823350366740214456384,
  823350366740214448194,
  823350366740214448194,
  673507162888295686464,
  673507162886149251264,
  673507162888295678274,
  673507162886149243074,
  673507162888296734784,
  673507162888296734784,
  673507162888296726594,
  673507162888296726594,
  823350366740213408064,
  823350366738066972864,
  823350366740213399874,
  823350366738066964674,
  823350366740214456384,
  823350366740214456384,
  823350366740214448194,
  823350366740214448194,
  821045086680953135424,
  821045086678806700224,
  821045086680886042944,
  821045086541367754944,
  821045086680954183744,
  821045086680954183744,
  821045086680887091264,
  821045086543515238464,
  821045086680953135424,
  821045086678806700224,
  821045086680886042944,
  821045086541367754944,
  821045086680954183744,
  821045086680954183744,
  821045086680887091264,
  821045086543515238464,
  823350366740213408064,
  823350366738066972864,
  823350366740146315584,
  823350366600628027584,
  823350366740214456384,
  823350366740214456384,
  823350366740147363904,
  823350366602775511104,
  821045086680953135424,
  821045086678806700224,
  821045086818358534464,
  821045086816212099264,
  821045086680954183744,
  821045086680954183744,
  821045086818359582784,
  821045086818359582784,
  821045086680953135424,
  821045086678806700224,
  821045086818358534464,
  821045086816212099264,
  821045086680954183744,
  821045086680954183744,
  821045086818359582784,
  821045086818359582784]
def ccdq_t4_aaaaaaaa_anti0_cert_5 : List Nat := [823350366740213408064,
  823350366738066972864,
  823350366877618807104,
  823350366875472371904,
  823350366740214456384,
  823350366740214456384,
  823350366877619855424,
  823350366877619855424,
  821045086680953135424,
  821045086678806700224,
  821045086680852472134,
  821045086403928793284,
  821045086680954183744,
  821045086680954183744,
  821045086680853520454,
  821045086406076276804,
  821045086680953135424,
  821045086678806700224,
  821045086680852472134,
  821045086403928793284,
  821045086680954183744,
  821045086680954183744,
  821045086680853520454,
  821045086406076276804,
  823350366740213408064,
  823350366738066972864,
  823350366740112744774,
  823350366463189065924,
  823350366740214456384,
  823350366740214456384,
  823350366740113793094,
  823350366465336549444,
  821045086680953135424,
  821045086678806700224,
  821045069093062058304,
  821045077882714202304,
  673507162888295686464,
  673507162886149251264,
  673507145300404609344,
  673507154090056753344,
  675812442947555959104,
  675812442945409523904,
  675812425359664881984,
  675812434149317025984,
  823350366740213408064,
  823350366738066972864,
  823350366877618807104,
  823350366875472371904,
  823350349152322330944,
  823350357941974474944,
  823350349289727729984,
  823350358079379873984,
  823350366740213408064,
  823350366738066972864,
  823350366877618807104,
  823350366875472371904,
  823350349152322330944,
  823350357941974474944,
  823350349289727729984,
  823350358079379873984,
  673507162888295686464,
  673507162886149251264,
  673507163025701085504,
  673507163023554650304,
  673507145300404609344,
  673507154090056753344,
  673507145437810008384,
  673507154227462152384,
  823350366740213408064,
  823350366738066972864,
  823350366877618807104,
  823350366875472371904,
  823350349152322330944,
  823350357941974474944,
  823350349289727729984,
  823350358079379873984,
  823350366740213408064,
  823350366738066972864,
  823350366740213399874,
  823350366738066964674,
  823350349152322330944,
  823350357941974474944,
  823350349152322322754,
  823350357941974466754,
  823350366740213408064,
  823350366738066972864,
  823350366740213399874,
  823350366738066964674,
  823350349152322330944,
  823350357941974474944,
  823350349152322322754,
  823350357941974466754,
  673507162888295686464,
  673507162886149251264,
  673507162888295678274,
  673507162886149243074,
  673507145300404609344,
  673507154090056753344,
  673507145300404601154,
  673507154090056745154,
  823350366740213408064,
  823350366738066972864,
  823350366740213399874,
  823350366738066964674,
  823350349152322330944,
  823350357941974474944,
  823350349152322322754,
  823350357941974466754,
  821045086680953135424,
  821045086678806700224,
  821045086680886042944,
  821045086541367754944,
  821045069093062058304,
  821045077882714202304,
  821045069092994965824,
  821045077745275257024,
  821045086680953135424,
  821045086678806700224,
  821045086680886042944,
  821045086541367754944,
  821045069093062058304,
  821045077882714202304,
  821045069092994965824,
  821045077745275257024,
  823350366740213408064,
  823350366738066972864,
  823350366740146315584,
  823350366600628027584,
  823350349152322330944,
  823350357941974474944,
  823350349152255238464,
  823350357804535529664,
  821045086680953135424,
  821045086678806700224,
  821045086818358534464,
  821045086816212099264,
  821045069093062058304,
  821045077882714202304,
  821045069230467457344,
  821045078020119601344,
  821045086680953135424,
  821045086678806700224,
  821045086818358534464,
  821045086816212099264,
  821045069093062058304,
  821045077882714202304,
  821045069230467457344,
  821045078020119601344,
  823350366740213408064,
  823350366738066972864,
  823350366877618807104,
  823350366875472371904,
  823350349152322330944,
  823350357941974474944,
  823350349289727729984,
  823350358079379873984,
  821045086680953135424,
  821045086678806700224,
  821045086680852472134,
  821045086403928793284,
  821045069093062058304,
  821045077882714202304,
  821045069092961395014,
  821045077607836295364,
  821045086680953135424,
  821045086678806700224,
  821045086680852472134,
  821045086403928793284,
  821045069093062058304,
  821045077882714202304,
  821045069092961395014,
  821045077607836295364,
  823350366740213408064,
  823350366738066972864,
  823350366740112744774,
  823350366463189065924,
  823350349152322330944,
  823350357941974474944,
  823350349152221667654,
  823350357667096568004,
  821045086680953135424,
  821045086678806700224,
  821045086678806176064,
  821045086678806176064,
  823350366740213408064,
  823350366738066972864,
  823350366877618807104,
  823350366875472371904,
  823350366738066448704,
  823350366738066448704,
  823350366875471847744,
  823350366875471847744,
  823350366740213408064,
  823350366738066972864,
  823350366877618807104,
  823350366875472371904,
  823350366738066448704,
  823350366738066448704,
  823350366875471847744,
  823350366875471847744,
  675812442947555959104,
  675812442945409523904,
  675812443084961358144,
  675812443082814922944,
  675812442945408999744,
  675812442945408999744,
  675812443082814398784,
  675812443082814398784,
  823350366740213408064,
  823350366738066972864,
  823350366740213399874,
  823350366738066964674,
  823350366738066448704,
  823350366738066448704,
  823350366738066440514,
  823350366738066440514,
  823350366740213408064,
  823350366738066972864,
  823350366740213399874,
  823350366738066964674,
  823350366738066448704,
  823350366738066448704,
  823350366738066440514,
  823350366738066440514,
  675812442947555959104,
  675812442945409523904,
  675812442947555950914,
  675812442945409515714,
  675812442945408999744,
  675812442945408999744,
  675812442945408991554,
  675812442945408991554,
  821045086680953135424,
  821045086678806700224,
  821045086680954183744,
  821045086680954183744,
  823350366740213408064,
  823350366738066972864,
  823350366877618807104,
  823350366875472371904,
  823350366740214456384,
  823350366740214456384,
  823350366877619855424,
  823350366877619855424,
  823350366740213408064,
  823350366738066972864,
  823350366877618807104,
  823350366875472371904,
  823350366740214456384,
  823350366740214456384,
  823350366877619855424,
  823350366877619855424,
  675812442947555959104,
  675812442945409523904,
  675812443084961358144,
  675812443082814922944,
  675812442947557007424,
  675812442947557007424,
  675812443084962406464,
  675812443084962406464,
  823350366740213408064,
  823350366738066972864,
  823350366740213399874,
  823350366738066964674,
  823350366740214456384,
  823350366740214456384,
  823350366740214448194,
  823350366740214448194,
  823350366740213408064,
  823350366738066972864,
  823350366740213399874,
  823350366738066964674,
  823350366740214456384,
  823350366740214456384,
  823350366740214448194,
  823350366740214448194,
  675812442947555959104,
  675812442945409523904,
  675812442947555950914,
  675812442945409515714,
  675812442947557007424,
  675812442947557007424,
  675812442947556999234,
  675812442947556999234,
  821045086680953135424,
  821045086678806700224,
  821045060292675641664,
  821045069086620656064,
  823350366740213408064,
  823350366738066972864,
  823350366877618807104,
  823350366875472371904,
  823350340351935914304,
  823350349145880928704,
  823350340489341313344,
  823350349283286327744,
  823350366740213408064,
  823350366738066972864,
  823350366877618807104,
  823350366875472371904,
  823350340351935914304,
  823350349145880928704,
  823350340489341313344,
  823350349283286327744,
  675812442947555959104,
  675812442945409523904,
  675812443084961358144,
  675812443082814922944,
  675812416559278465344,
  675812425353223479744,
  675812416696683864384,
  675812425490628878784,
  823350366740213408064,
  823350366738066972864,
  823350366740213399874,
  823350366738066964674,
  823350340351935914304,
  823350349145880928704,
  823350340351935906114,
  823350349145880920514,
  823350366740213408064,
  823350366738066972864,
  823350366740213399874,
  823350366738066964674,
  823350340351935914304,
  823350349145880928704,
  823350340351935906114,
  823350349145880920514,
  675812442947555959104,
  675812442945409523904,
  675812442947555950914,
  675812442945409515714,
  675812416559278465344,
  675812425353223479744,
  675812416559278457154,
  675812425353223471554,
  11531497910407799104,
  11531497908261363904,
  11531497910407790914,
  11531497908261355714,
  9226217849000567104,
  9226217849000567104,
  9226217849000558914,
  9226217849000558914,
  9226217851147526464,
  9226217849001091264,
  9226217851147518274,
  9226217849001083074,
  11531497910407799104,
  11531497908261363904,
  11531497910307135814,
  11531497633383456964,
  9226217849000567104,
  9226217849000567104,
  9226217848899903814,
  9226217574122660164,
  9226217851147526464,
  9226217849001091264,
  9226217851046863174,
  9226217574123184324,
  11531497910407799104,
  11531497908261363904,
  11531497910340706624,
  11531497770822418624,
  9226217849000567104,
  9226217849000567104,
  9226217848933474624,
  9226217711561621824,
  9226217851147526464,
  9226217849001091264,
  9226217851080433984,
  9226217711562145984,
  11531497910407799104,
  11531497908261363904,
  11531497635529892164,
  11531497908160700614,
  9226217849000567104,
  9226217849000567104,
  9226217574122660164,
  9226217848899903814,
  9226217851147526464,
  9226217849001091264,
  9226217576269619524,
  9226217848900427974,
  11531497910407799104,
  11531497908261363904,
  11531497772968853824,
  11531497908194271424,
  9226217849000567104,
  9226217849000567104,
  9226217711561621824,
  9226217848933474624,
  9226217851147526464,
  9226217849001091264,
  9226217713708581184,
  9226217848933998784,
  11531497910407799104,
  11531497908261363904,
  11531498047813198144,
  11531498045666762944]
def ccdq_t4_aaaaaaaa_anti0_cert_6 : List Nat := [9226217849000567104,
  9226217849000567104,
  9226217986405966144,
  9226217986405966144,
  9226217851147526464,
  9226217849001091264,
  9226217988552925504,
  9226217986406490304,
  164412450924667200,
  164412448778232000,
  164412450924659010,
  164412448778223810,
  164412448777707840,
  164412448777707840,
  164412448777699650,
  164412448777699650,
  164412450924667200,
  164412448778232000,
  164412588330066240,
  164412586183631040,
  164412448777707840,
  164412448777707840,
  164412586183106880,
  164412586183106880,
  164412450924667200,
  164412448778232000,
  164412450924659010,
  164412448778223810,
  164412450925715520,
  164412450925715520,
  164412450925707330,
  164412450925707330,
  164412450924667200,
  164412448778232000,
  164412588330066240,
  164412586183631040,
  164412450925715520,
  164412450925715520,
  164412588331114560,
  164412588331114560,
  164412450924667200,
  164412448778232000,
  164412450924659010,
  164412448778223810,
  164412448777707840,
  164412448777707840,
  164412448777699650,
  164412448777699650,
  164412450924667200,
  164412448778232000,
  164412450924659010,
  164412448778223810,
  164412450925715520,
  164412450925715520,
  164412450925707330,
  164412450925707330,
  164412450924667200,
  164412448778232000,
  164412450824003910,
  164412173900325060,
  164412448777707840,
  164412448777707840,
  164412448677044550,
  164412173899800900,
  164412450924667200,
  164412448778232000,
  164412450924659010,
  164412448778223810,
  164412448777707840,
  164412448777707840,
  164412448777699650,
  164412448777699650,
  164412450924667200,
  164412448778232000,
  164412450824003910,
  164412173900325060,
  164412450925715520,
  164412450925715520,
  164412450825052230,
  164412176047808580,
  164412450924667200,
  164412448778232000,
  164412450924659010,
  164412448778223810,
  164412450925715520,
  164412450925715520,
  164412450925707330,
  164412450925707330,
  164412450924667200,
  164412448778232000,
  164412450857574720,
  164412311339286720,
  164412448777707840,
  164412448777707840,
  164412448710615360,
  164412311338762560,
  164412450924667200,
  164412448778232000,
  164412450857574720,
  164412311339286720,
  164412450925715520,
  164412450925715520,
  164412450858623040,
  164412313486770240,
  164412450924667200,
  164412448778232000,
  164412450924659010,
  164412448778223810,
  164412453072150720,
  164412453072150720,
  164412453072142530,
  164412453072142530,
  164412450924667200,
  164412448778232000,
  164412588330066240,
  164412586183631040,
  164412453072150720,
  164412453072150720,
  164412590477549760,
  164412590477549760,
  164412450924667200,
  164412448778232000,
  164412450924659010,
  164412448778223810,
  164412453072150720,
  164412453072150720,
  164412453072142530,
  164412453072142530,
  164412450924667200,
  164412448778232000,
  164412450824003910,
  164412173900325060,
  164412453072150720,
  164412453072150720,
  164412452971487430,
  164412178194243780,
  164412450924667200,
  164412448778232000,
  164412450924659010,
  164412448778223810,
  164412453072150720,
  164412453072150720,
  164412453072142530,
  164412453072142530,
  164412450924667200,
  164412448778232000,
  164412450857574720,
  164412311339286720,
  164412453072150720,
  164412453072150720,
  164412453005058240,
  164412315633205440,
  164412450924667200,
  164412448778232000,
  164412450924659010,
  164412448778223810,
  164412450925715520,
  164412450925715520,
  164412450925707330,
  164412450925707330,
  164412450924667200,
  164412448778232000,
  164412588330066240,
  164412586183631040,
  164412450925715520,
  164412450925715520,
  164412588331114560,
  164412588331114560,
  164412450924667200,
  164412448778232000,
  164412450924659010,
  164412448778223810,
  164394863033590080,
  164403652685734080,
  164394863033581890,
  164403652685725890,
  164412450924667200,
  164412448778232000,
  164412588330066240,
  164412586183631040,
  164394863033590080,
  164403652685734080,
  164395000438989120,
  164403790091133120,
  164412450924667200,
  164412448778232000,
  164412450924659010,
  164412448778223810,
  164412450925715520,
  164412450925715520,
  164412450925707330,
  164412450925707330,
  164412450924667200,
  164412448778232000,
  164412450924659010,
  164412448778223810,
  164394863033590080,
  164403652685734080,
  164394863033581890,
  164403652685725890,
  164412450924667200,
  164412448778232000,
  164412450824003910,
  164412173900325060,
  164412450925715520,
  164412450925715520,
  164412450825052230,
  164412176047808580,
  164412450924667200,
  164412448778232000,
  164412450924659010,
  164412448778223810,
  164412450925715520,
  164412450925715520,
  164412450925707330,
  164412450925707330,
  164412450924667200,
  164412448778232000,
  164412450824003910,
  164412173900325060,
  164394863033590080,
  164403652685734080,
  164394862932926790,
  164403377807827140,
  164412450924667200,
  164412448778232000,
  164412450924659010,
  164412448778223810,
  164394863033590080,
  164403652685734080,
  164394863033581890,
  164403652685725890,
  164412450924667200,
  164412448778232000,
  164412450857574720,
  164412311339286720,
  164412450925715520,
  164412450925715520,
  164412450858623040,
  164412313486770240,
  164412450924667200,
  164412448778232000,
  164412450857574720,
  164412311339286720,
  164394863033590080,
  164403652685734080,
  164394862966497600,
  164403515246788800,
  164412450924667200,
  164412448778232000,
  164412450924659010,
  164412448778223810,
  164412450925715520,
  164412450925715520,
  164412450925707330,
  164412450925707330,
  164412450924667200,
  164412448778232000,
  164412588330066240,
  164412586183631040,
  164412450925715520,
  164412450925715520,
  164412588331114560,
  164412588331114560,
  164412450924667200,
  164412448778232000,
  164412450924659010,
  164412448778223810,
  164412450925715520,
  164412450925715520,
  164412450925707330,
  164412450925707330,
  164412450924667200,
  164412448778232000,
  164412450824003910,
  164412173900325060,
  164412450925715520,
  164412450925715520,
  164412450825052230,
  164412176047808580,
  164412450924667200,
  164412448778232000,
  164412450924659010,
  164412448778223810,
  164412450925715520,
  164412450925715520,
  164412450925707330,
  164412450925707330,
  164412450924667200,
  164412448778232000,
  164412450857574720,
  164412311339286720,
  164412450925715520,
  164412450925715520,
  164412450858623040,
  164412313486770240,
  811818899894331253056,
  811818899892184817856,
  811818899894264160576,
  811818899754745872576,
  811818899892184293696,
  811818899892184293696,
  811818899892117201216,
  811818899754745348416,
  811818899894331253056,
  811818899892184817856,
  811818900031736652096,
  811818900029590216896,
  811818899892184293696,
  811818899892184293696,
  811818900029589692736,
  811818900029589692736,
  811818899894331253056,
  811818899892184817856,
  811818899894230589766,
  811818899617306910916,
  811818899892184293696,
  811818899892184293696,
  811818899892083630406,
  811818899617306386756,
  811818899894331253056,
  811818899892184817856,
  811818899894264160576,
  811818899754745872576,
  664280976101674852416,
  664280976101674852416,
  664280976101607759936,
  664280975964235907136,
  811818899894331253056,
  811818899892184817856,
  811818900031736652096,
  811818900029590216896,
  664280976101674852416,
  664280976101674852416,
  664280976239080251456,
  664280976239080251456,
  811818899894331253056,
  811818899892184817856,
  811818899894230589766,
  811818899617306910916,
  664280976101674852416,
  664280976101674852416,
  664280976101574189126,
  664280975826796945476,
  811818899894331253056,
  811818899892184817856,
  811818899894264160576,
  811818899754745872576,
  664280949713396310336,
  664280958507341324736,
  664280949713329217856,
  664280958369902379456,
  811818899894331253056,
  811818899892184817856,
  811818900031736652096,
  811818900029590216896,
  664280949713396310336,
  664280958507341324736,
  664280949850801709376,
  664280958644746723776,
  811818899894331253056,
  811818899892184817856,
  811818899894230589766,
  811818899617306910916,
  664280949713396310336,
  664280958507341324736,
  664280949713295647046,
  664280958232463417796,
  823350366740213408064,
  823350366738066972864,
  823350366740213399874,
  823350366738066964674,
  821045086678806176064,
  821045086678806176064,
  821045086678806167874,
  821045086678806167874,
  821045086680953135424,
  821045086678806700224,
  821045086680953127234,
  821045086678806692034,
  823350366740213408064,
  823350366738066972864,
  823350366740112744774,
  823350366463189065924,
  821045086678806176064,
  821045086678806176064,
  821045086678705512774,
  821045086403928269124,
  821045086680953135424,
  821045086678806700224,
  821045086680852472134,
  821045086403928793284,
  823350366740213408064,
  823350366738066972864,
  823350366740146315584,
  823350366600628027584,
  821045086678806176064,
  821045086678806176064,
  821045086678739083584,
  821045086541367230784]
def ccdq_t4_aaaaaaaa_anti0_cert_7 : List Nat := [821045086680953135424,
  821045086678806700224,
  821045086680886042944,
  821045086541367754944,
  823350366740213408064,
  823350366738066972864,
  823350366465335501124,
  823350366737966309574,
  821045086678806176064,
  821045086678806176064,
  821045086403928269124,
  821045086678705512774,
  821045086680953135424,
  821045086678806700224,
  821045086406075228484,
  821045086678706036934,
  823350366740213408064,
  823350366738066972864,
  823350366602774462784,
  823350366737999880384,
  821045086678806176064,
  821045086678806176064,
  821045086541367230784,
  821045086678739083584,
  821045086680953135424,
  821045086678806700224,
  821045086543514190144,
  821045086678739607744,
  823350366740213408064,
  823350366738066972864,
  823350366877618807104,
  823350366875472371904,
  821045086678806176064,
  821045086678806176064,
  821045086816211575104,
  821045086816211575104,
  821045086680953135424,
  821045086678806700224,
  821045086818358534464,
  821045086816212099264,
  675812442947555959104,
  675812442945409523904,
  675812442947555950914,
  675812442945409515714,
  675812442945408999744,
  675812442945408999744,
  675812442945408991554,
  675812442945408991554,
  673507162888295686464,
  673507162886149251264,
  673507162888295678274,
  673507162886149243074,
  673507162886148727104,
  673507162886148727104,
  673507162886148718914,
  673507162886148718914,
  675812442947555959104,
  675812442945409523904,
  675812443084961358144,
  675812443082814922944,
  675812442945408999744,
  675812442945408999744,
  675812443082814398784,
  675812443082814398784,
  673507162888295686464,
  673507162886149251264,
  673507163025701085504,
  673507163023554650304,
  673507162886148727104,
  673507162886148727104,
  673507163023554126144,
  673507163023554126144,
  823350366740213408064,
  823350366738066972864,
  823350366740213399874,
  823350366738066964674,
  823350366740214456384,
  823350366740214456384,
  823350366740214448194,
  823350366740214448194,
  673507162888295686464,
  673507162886149251264,
  673507162888295678274,
  673507162886149243074,
  673507162888296734784,
  673507162888296734784,
  673507162888296726594,
  673507162888296726594,
  823350366740213408064,
  823350366738066972864,
  823350366877618807104,
  823350366875472371904,
  823350366740214456384,
  823350366740214456384,
  823350366877619855424,
  823350366877619855424,
  673507162888295686464,
  673507162886149251264,
  673507163025701085504,
  673507163023554650304,
  673507162888296734784,
  673507162888296734784,
  673507163025702133824,
  673507163025702133824,
  675812442947555959104,
  675812442945409523904,
  675812442947555950914,
  675812442945409515714,
  675812442945408999744,
  675812442945408999744,
  675812442945408991554,
  675812442945408991554,
  673507162888295686464,
  673507162886149251264,
  673507162888295678274,
  673507162886149243074,
  673507162886148727104,
  673507162886148727104,
  673507162886148718914,
  673507162886148718914,
  823350366740213408064,
  823350366738066972864,
  823350366740213399874,
  823350366738066964674,
  823350366740214456384,
  823350366740214456384,
  823350366740214448194,
  823350366740214448194,
  673507162888295686464,
  673507162886149251264,
  673507162888295678274,
  673507162886149243074,
  673507162888296734784,
  673507162888296734784,
  673507162888296726594,
  673507162888296726594,
  675812442947555959104,
  675812442945409523904,
  675812442947455295814,
  675812442670531616964,
  675812442945408999744,
  675812442945408999744,
  675812442945308336454,
  675812442670531092804,
  673507162888295686464,
  673507162886149251264,
  673507162888195023174,
  673507162611271344324,
  673507162886148727104,
  673507162886148727104,
  673507162886048063814,
  673507162611270820164,
  675812442947555959104,
  675812442945409523904,
  675812442947555950914,
  675812442945409515714,
  675812442945408999744,
  675812442945408999744,
  675812442945408991554,
  675812442945408991554,
  673507162888295686464,
  673507162886149251264,
  673507162888295678274,
  673507162886149243074,
  673507162886148727104,
  673507162886148727104,
  673507162886148718914,
  673507162886148718914,
  823350366740213408064,
  823350366738066972864,
  823350366740112744774,
  823350366463189065924,
  823350366740214456384,
  823350366740214456384,
  823350366740113793094,
  823350366465336549444,
  673507162888295686464,
  673507162886149251264,
  673507162888195023174,
  673507162611271344324,
  673507162888296734784,
  673507162888296734784,
  673507162888196071494,
  673507162613418827844,
  823350366740213408064,
  823350366738066972864,
  823350366740213399874,
  823350366738066964674,
  823350366740214456384,
  823350366740214456384,
  823350366740214448194,
  823350366740214448194,
  673507162888295686464,
  673507162886149251264,
  673507162888295678274,
  673507162886149243074,
  673507162888296734784,
  673507162888296734784,
  673507162888296726594,
  673507162888296726594,
  675812442947555959104,
  675812442945409523904,
  675812442947488866624,
  675812442807970578624,
  675812442945408999744,
  675812442945408999744,
  675812442945341907264,
  675812442807970054464,
  673507162888295686464,
  673507162886149251264,
  673507162888228593984,
  673507162748710305984,
  673507162886148727104,
  673507162886148727104,
  673507162886081634624,
  673507162748709781824,
  823350366740213408064,
  823350366738066972864,
  823350366740146315584,
  823350366600628027584,
  823350366740214456384,
  823350366740214456384,
  823350366740147363904,
  823350366602775511104,
  673507162888295686464,
  673507162886149251264,
  673507162888228593984,
  673507162748710305984,
  673507162888296734784,
  673507162888296734784,
  673507162888229642304,
  673507162750857789504,
  675812442947555959104,
  675812442945409523904,
  675812442947555950914,
  675812442945409515714,
  675812442945408999744,
  675812442945408999744,
  675812442945408991554,
  675812442945408991554,
  821045086680953135424,
  821045086678806700224,
  821045086680953127234,
  821045086678806692034,
  821045086678806176064,
  821045086678806176064,
  821045086678806167874,
  821045086678806167874,
  673507162888295686464,
  673507162886149251264,
  673507162888228593984,
  673507162748710305984,
  673507162886148727104,
  673507162886148727104,
  673507162886081634624,
  673507162748709781824,
  823350366740213408064,
  823350366738066972864,
  823350366740213399874,
  823350366738066964674,
  823350366740214456384,
  823350366740214456384,
  823350366740214448194,
  823350366740214448194,
  821045086680953135424,
  821045086678806700224,
  821045086680953127234,
  821045086678806692034,
  821045086680954183744,
  821045086680954183744,
  821045086680954175554,
  821045086680954175554,
  821045086680953135424,
  821045086678806700224,
  821045086680886042944,
  821045086541367754944,
  821045086680954183744,
  821045086680954183744,
  821045086680887091264,
  821045086543515238464,
  675812442947555959104,
  675812442945409523904,
  675812442947455295814,
  675812442670531616964,
  675812442945408999744,
  675812442945408999744,
  675812442945308336454,
  675812442670531092804,
  821045086680953135424,
  821045086678806700224,
  821045086680852472134,
  821045086403928793284,
  821045086678806176064,
  821045086678806176064,
  821045086678705512774,
  821045086403928269124,
  823350366740213408064,
  823350366738066972864,
  823350366740112744774,
  823350366463189065924,
  823350366740214456384,
  823350366740214456384,
  823350366740113793094,
  823350366465336549444,
  821045086680953135424,
  821045086678806700224,
  821045086680852472134,
  821045086403928793284,
  821045086680954183744,
  821045086680954183744,
  821045086680853520454,
  821045086406076276804,
  675812442947555959104,
  675812442945409523904,
  675812442947488866624,
  675812442807970578624,
  675812442945408999744,
  675812442945408999744,
  675812442945341907264,
  675812442807970054464,
  821045086680953135424,
  821045086678806700224,
  821045086680886042944,
  821045086541367754944,
  821045086678806176064,
  821045086678806176064,
  821045086678739083584,
  821045086541367230784,
  673507162888295686464,
  673507162886149251264,
  673507163025701085504,
  673507163023554650304,
  673507162886148727104,
  673507162886148727104,
  673507163023554126144,
  673507163023554126144,
  823350366740213408064,
  823350366738066972864,
  823350366740146315584,
  823350366600628027584,
  823350366740214456384,
  823350366740214456384,
  823350366740147363904,
  823350366602775511104,
  821045086680953135424,
  821045086678806700224,
  821045086680886042944,
  821045086541367754944,
  821045086680954183744,
  821045086680954183744,
  821045086680887091264,
  821045086543515238464,
  821045086680953135424,
  821045086678806700224,
  821045086818358534464,
  821045086816212099264,
  821045086680954183744,
  821045086680954183744,
  821045086818359582784,
  821045086818359582784,
  675812442947555959104,
  675812442945409523904,
  675812442672678052164,
  675812442945308860614,
  675812442945408999744,
  675812442945408999744,
  675812442670531092804,
  675812442945308336454,
  821045086680953135424,
  821045086678806700224,
  821045086406075228484,
  821045086678706036934,
  821045086678806176064,
  821045086678806176064,
  821045086403928269124,
  821045086678705512774,
  673507162888295686464,
  673507162886149251264,
  673507162888195023174,
  673507162611271344324,
  673507162886148727104,
  673507162886148727104,
  673507162886048063814,
  673507162611270820164,
  823350366740213408064,
  823350366738066972864,
  823350366465335501124,
  823350366737966309574,
  823350366740214456384,
  823350366740214456384,
  823350366465336549444,
  823350366740113793094,
  821045086680953135424,
  821045086678806700224,
  821045086406075228484,
  821045086678706036934,
  821045086680954183744,
  821045086680954183744,
  821045086406076276804,
  821045086680853520454]
def ccdq_t4_aaaaaaaa_anti0_cert_8 : List Nat := [821045086680953135424,
  821045086678806700224,
  821045086680852472134,
  821045086403928793284,
  821045086680954183744,
  821045086680954183744,
  821045086680853520454,
  821045086406076276804,
  675812442947555959104,
  675812442945409523904,
  675812442810117013824,
  675812442945342431424,
  675812442945408999744,
  675812442945408999744,
  675812442807970054464,
  675812442945341907264,
  821045086680953135424,
  821045086678806700224,
  821045086543514190144,
  821045086678739607744,
  821045086678806176064,
  821045086678806176064,
  821045086541367230784,
  821045086678739083584,
  823350366740213408064,
  823350366738066972864,
  823350366602774462784,
  823350366737999880384,
  823350366740214456384,
  823350366740214456384,
  823350366602775511104,
  823350366740147363904,
  821045086680953135424,
  821045086678806700224,
  821045086543514190144,
  821045086678739607744,
  821045086680954183744,
  821045086680954183744,
  821045086543515238464,
  821045086680887091264,
  675812442947555959104,
  675812442945409523904,
  675812443084961358144,
  675812443082814922944,
  675812442945408999744,
  675812442945408999744,
  675812443082814398784,
  675812443082814398784,
  821045086680953135424,
  821045086678806700224,
  821045086818358534464,
  821045086816212099264,
  821045086678806176064,
  821045086678806176064,
  821045086816211575104,
  821045086816211575104,
  823350366740213408064,
  823350366738066972864,
  823350366877618807104,
  823350366875472371904,
  823350366740214456384,
  823350366740214456384,
  823350366877619855424,
  823350366877619855424,
  821045086680953135424,
  821045086678806700224,
  821045086818358534464,
  821045086816212099264,
  821045086680954183744,
  821045086680954183744,
  821045086818359582784,
  821045086818359582784,
  823350366740213408064,
  823350366738066972864,
  823350366740213399874,
  823350366738066964674,
  673507162888295686464,
  673507162886149251264,
  673507162888295678274,
  673507162886149243074,
  823350366740213408064,
  823350366738066972864,
  823350366877618807104,
  823350366875472371904,
  673507162888295686464,
  673507162886149251264,
  673507163025701085504,
  673507163023554650304,
  823350366740213408064,
  823350366738066972864,
  823350366740213399874,
  823350366738066964674,
  673507162888295686464,
  673507162886149251264,
  673507162888295678274,
  673507162886149243074,
  823350366740213408064,
  823350366738066972864,
  823350366740112744774,
  823350366463189065924,
  673507162888295686464,
  673507162886149251264,
  673507162888195023174,
  673507162611271344324,
  823350366740213408064,
  823350366738066972864,
  823350366740213399874,
  823350366738066964674,
  673507162888295686464,
  673507162886149251264,
  673507162888295678274,
  673507162886149243074,
  823350366740213408064,
  823350366738066972864,
  823350366740146315584,
  823350366600628027584,
  673507162888295686464,
  673507162886149251264,
  673507162888228593984,
  673507162748710305984,
  823350366740213408064,
  823350366738066972864,
  823350366740213399874,
  823350366738066964674,
  821045086680953135424,
  821045086678806700224,
  821045086680953127234,
  821045086678806692034,
  821045086680953135424,
  821045086678806700224,
  821045086680886042944,
  821045086541367754944,
  823350366740213408064,
  823350366738066972864,
  823350366740112744774,
  823350366463189065924,
  821045086680953135424,
  821045086678806700224,
  821045086680852472134,
  821045086403928793284,
  823350366740213408064,
  823350366738066972864,
  823350366740146315584,
  823350366600628027584,
  821045086680953135424,
  821045086678806700224,
  821045086680886042944,
  821045086541367754944,
  821045086680953135424,
  821045086678806700224,
  821045086818358534464,
  821045086816212099264,
  823350366740213408064,
  823350366738066972864,
  823350366465335501124,
  823350366737966309574,
  821045086680953135424,
  821045086678806700224,
  821045086406075228484,
  821045086678706036934,
  821045086680953135424,
  821045086678806700224,
  821045086680852472134,
  821045086403928793284,
  823350366740213408064,
  823350366738066972864,
  823350366602774462784,
  823350366737999880384,
  821045086680953135424,
  821045086678806700224,
  821045086543514190144,
  821045086678739607744,
  823350366740213408064,
  823350366738066972864,
  823350366877618807104,
  823350366875472371904,
  821045086680953135424,
  821045086678806700224,
  821045086818358534464,
  821045086816212099264,
  823350366740213408064,
  823350366738066972864,
  823350366740213399874,
  823350366738066964674,
  673507162888295686464,
  673507162886149251264,
  673507162888295678274,
  673507162886149243074,
  823350366740213408064,
  823350366738066972864,
  823350366877618807104,
  823350366875472371904,
  673507162888295686464,
  673507162886149251264,
  673507163025701085504,
  673507163023554650304,
  823350366740213408064,
  823350366738066972864,
  823350366740213399874,
  823350366738066964674,
  673507162888295686464,
  673507162886149251264,
  673507162888295678274,
  673507162886149243074,
  823350366740213408064,
  823350366738066972864,
  823350366740112744774,
  823350366463189065924,
  673507162888295686464,
  673507162886149251264,
  673507162888195023174,
  673507162611271344324,
  823350366740213408064,
  823350366738066972864,
  823350366740213399874,
  823350366738066964674,
  673507162888295686464,
  673507162886149251264,
  673507162888295678274,
  673507162886149243074,
  823350366740213408064,
  823350366738066972864,
  823350366740146315584,
  823350366600628027584,
  673507162888295686464,
  673507162886149251264,
  673507162888228593984,
  673507162748710305984,
  823350366740213408064,
  823350366738066972864,
  823350366740213399874,
  823350366738066964674,
  821045086680953135424,
  821045086678806700224,
  821045086680953127234,
  821045086678806692034,
  821045086680953135424,
  821045086678806700224,
  821045086680886042944,
  821045086541367754944,
  823350366740213408064,
  823350366738066972864,
  823350366740112744774,
  823350366463189065924,
  821045086680953135424,
  821045086678806700224,
  821045086680852472134,
  821045086403928793284,
  823350366740213408064,
  823350366738066972864,
  823350366740146315584,
  823350366600628027584,
  821045086680953135424,
  821045086678806700224,
  821045086680886042944,
  821045086541367754944,
  821045086680953135424,
  821045086678806700224,
  821045086818358534464,
  821045086816212099264,
  823350366740213408064,
  823350366738066972864,
  823350366465335501124,
  823350366737966309574,
  821045086680953135424,
  821045086678806700224,
  821045086406075228484,
  821045086678706036934,
  821045086680953135424,
  821045086678806700224,
  821045086680852472134,
  821045086403928793284,
  823350366740213408064,
  823350366738066972864,
  823350366602774462784,
  823350366737999880384,
  821045086680953135424,
  821045086678806700224,
  821045086543514190144,
  821045086678739607744,
  823350366740213408064,
  823350366738066972864,
  823350366877618807104,
  823350366875472371904,
  821045086680953135424,
  821045086678806700224,
  821045086818358534464,
  821045086816212099264]

/-- Check ccdq_t4_aaaaaaaa_anti0. Sign of aaaaaaaa under [1, 2, 0, 3, 4, 5, 7, 6]. -/
theorem ccdq_t4_aaaaaaaa_anti0 : isZero kinds [aᵥ, bᵥ, cᵥ, dᵥ, iₒ, jₒ, kₒ, lₒ] 100000000000000
    (ccdq_t4_aaaaaaaa ++ (Prog.outs [1, 2, 0, 3, 4, 5, 7, 6] (ccdq_t4_aaaaaaaa)))
    (ccdq_t4_aaaaaaaa_anti0_cert_0 ++ (ccdq_t4_aaaaaaaa_anti0_cert_1 ++ (ccdq_t4_aaaaaaaa_anti0_cert_2 ++ (ccdq_t4_aaaaaaaa_anti0_cert_3 ++ (ccdq_t4_aaaaaaaa_anti0_cert_4 ++ (ccdq_t4_aaaaaaaa_anti0_cert_5 ++ (ccdq_t4_aaaaaaaa_anti0_cert_6 ++ (ccdq_t4_aaaaaaaa_anti0_cert_7 ++ (ccdq_t4_aaaaaaaa_anti0_cert_8))))))))) = true := by decide +kernel

end Verif.Cert
