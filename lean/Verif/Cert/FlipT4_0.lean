import Verif.Ein.FlipProg
import Verif.Gen.SiCcdqT4_0
import Verif.Gen.SiCcdqT4_4

/-! Written by `/verif/tools/gen.py`. Checks of einsum programs. -/

set_option maxRecDepth 100000

namespace Verif.Cert

open Verif.Ein Verif.Ein.N


open Verif.Gen

def ccdq_t4_aaaaaaaa_flip_cert_0 : List Nat := [2283003892736064,
  2283003892736064,
  2282866487337024,
  2282866487337024,
  2283003892736064,
  2283003892736064,
  2283003892727874,
  2283003892727874,
  162160790664388672,
  162160790664388672,
  162160790663864512,
  162160790663864512,
  162160790664388672,
  162160790664388672,
  162151996718850112,
  162151996718850112,
  9226217990700933184,
  9226217990700933184,
  9226217990667386944,
  9226217990667386944,
  9226217990700933184,
  9226217990700933184,
  9226217853295534144,
  9226217853295534144,
  9226217990700933184,
  9226217990700933184,
  9226217990633824324,
  9226217990633824324,
  164412590478073920,
  164412590478073920,
  164412453072674880,
  164412453072674880,
  164412590477549760,
  164412590477549760,
  164412453072150720,
  164412453072150720,
  164412590478073920,
  164412590478073920,
  164412453072674880,
  164412453072674880,
  164412590477549760,
  164412590477549760,
  164412453072150720,
  164412453072150720,
  164412590478073920,
  164412590478073920,
  164412590478065730,
  164412590478065730,
  164412590477549760,
  164412590477549760,
  164412590477541570,
  164412590477541570,
  164412590478073920,
  164412590478073920,
  164412590478065730,
  164412590478065730,
  164412590477549760,
  164412590477549760,
  164412590477541570,
  164412590477541570,
  164412590478073920,
  164412590478073920,
  164412453072674880,
  164412453072674880,
  164403796532535360,
  164403796532535360,
  164403659127136320,
  164403659127136320,
  164412590478073920,
  164412590478073920,
  164412453072674880,
  164412453072674880,
  164403796532535360,
  164403796532535360,
  164403659127136320,
  164403659127136320,
  164412590478073920,
  164412590478073920,
  164412590478065730,
  164412590478065730,
  164403796532535360,
  164403796532535360,
  164403796532527170,
  164403796532527170,
  164412590478073920,
  164412590478073920,
  164412590478065730,
  164412590478065730,
  164403796532535360,
  164403796532535360,
  164403796532527170,
  164403796532527170,
  811818900033884659776,
  811818900033884659776,
  811818900031737700416,
  811818900031737700416,
  811818900033884659776,
  811818900033884659776,
  811818900033884135616,
  811818900033884135616,
  811818900033884659776,
  811818900033884659776,
  811818882441699663936,
  811818882441699663936,
  823350366879766814784,
  823350366879766814784,
  823350366742361415744,
  823350366742361415744,
  675812443087109365824,
  675812443087109365824,
  675812442949703966784,
  675812442949703966784,
  823350366879766814784,
  823350366879766814784,
  823350366742361415744,
  823350366742361415744,
  823350366879766814784,
  823350366879766814784,
  823350366879766806594,
  823350366879766806594,
  675812443087109365824,
  675812443087109365824,
  675812443087109357634,
  675812443087109357634,
  823350366879766814784,
  823350366879766814784,
  823350366879766806594,
  823350366879766806594,
  821045086820506542144,
  821045086820506542144,
  821045086820472995904,
  821045086820472995904,
  821045086820506542144,
  821045086820506542144,
  821045086683101143104,
  821045086683101143104,
  821045086820506542144,
  821045086820506542144,
  821045086820439433284,
  821045086820439433284,
  821045086820506542144,
  821045086820506542144,
  821045086820506017984,
  821045086820506017984,
  823350366879766814784,
  823350366879766814784,
  823350366879766290624,
  823350366879766290624,
  821045086820506542144,
  821045086820506542144,
  821045086820506017984,
  821045086820506017984,
  823350366879766814784,
  823350366879766814784,
  823350366742361415744,
  823350366742361415744,
  823350366879766290624,
  823350366879766290624,
  823350366742360891584,
  823350366742360891584,
  673507163027849093184,
  673507163027849093184,
  673507162890443694144,
  673507162890443694144,
  673507163027848569024,
  673507163027848569024,
  673507162890443169984,
  673507162890443169984,
  823350366879766814784,
  823350366879766814784,
  823350366742361415744,
  823350366742361415744,
  823350366879766290624,
  823350366879766290624,
  823350366742360891584,
  823350366742360891584,
  823350366879766814784,
  823350366879766814784,
  823350366742361415744,
  823350366742361415744,
  823350366879766290624,
  823350366879766290624,
  823350366742360891584,
  823350366742360891584,
  823350366879766814784,
  823350366879766814784,
  823350366879766806594,
  823350366879766806594,
  823350366879766290624,
  823350366879766290624,
  823350366879766282434,
  823350366879766282434,
  673507163027849093184,
  673507163027849093184,
  673507163027849084994,
  673507163027849084994,
  673507163027848569024,
  673507163027848569024,
  673507163027848560834,
  673507163027848560834,
  823350366879766814784,
  823350366879766814784,
  823350366879766806594,
  823350366879766806594,
  823350366879766290624,
  823350366879766290624,
  823350366879766282434,
  823350366879766282434,
  823350366879766814784,
  823350366879766814784,
  823350366879766806594,
  823350366879766806594,
  823350366879766290624,
  823350366879766290624,
  823350366879766282434,
  823350366879766282434,
  821045086820506542144,
  821045086820506542144,
  821045086820472995904,
  821045086820472995904,
  821045086820506017984,
  821045086820506017984,
  821045086820472471744,
  821045086820472471744,
  675812443087109365824,
  675812443087109365824,
  675812443087075819584,
  675812443087075819584,
  675812443087108841664,
  675812443087108841664,
  675812443087075295424,
  675812443087075295424,
  673507163027849093184,
  673507163027849093184,
  673507163027815546944,
  673507163027815546944,
  673507163027848569024,
  673507163027848569024,
  673507163027815022784,
  673507163027815022784,
  821045086820506542144,
  821045086820506542144,
  821045086683101143104,
  821045086683101143104,
  821045086820506017984,
  821045086820506017984,
  821045086683100618944,
  821045086683100618944,
  675812443087109365824,
  675812443087109365824,
  675812442949703966784,
  675812442949703966784,
  675812443087108841664,
  675812443087108841664,
  675812442949703442624,
  675812442949703442624,
  673507163027849093184,
  673507163027849093184,
  673507162890443694144,
  673507162890443694144,
  673507163027848569024,
  673507163027848569024,
  673507162890443169984,
  673507162890443169984,
  821045086820506542144,
  821045086820506542144,
  821045086820439433284,
  821045086820439433284,
  821045086820506017984,
  821045086820506017984,
  821045086820438909124,
  821045086820438909124,
  675812443087109365824,
  675812443087109365824,
  675812443087042256964,
  675812443087042256964,
  675812443087108841664,
  675812443087108841664,
  675812443087041732804,
  675812443087041732804,
  673507163027849093184,
  673507163027849093184,
  673507163027781984324,
  673507163027781984324,
  673507163027848569024,
  673507163027848569024,
  673507163027781460164,
  673507163027781460164,
  821045086820506542144,
  821045086820506542144,
  821045078026561003584,
  821045078026561003584,
  823350366879766814784,
  823350366879766814784,
  823350358085821276224,
  823350358085821276224,
  821045086820506542144,
  821045086820506542144,
  821045078026561003584,
  821045078026561003584,
  823350366879766814784,
  823350366879766814784,
  823350366742361415744,
  823350366742361415744,
  823350358085821276224,
  823350358085821276224,
  823350357948415877184,
  823350357948415877184,
  673507163027849093184,
  673507163027849093184,
  673507162890443694144,
  673507162890443694144,
  673507154233903554624,
  673507154233903554624,
  673507154096498155584,
  673507154096498155584,
  823350366879766814784,
  823350366879766814784,
  823350366742361415744,
  823350366742361415744,
  823350358085821276224,
  823350358085821276224,
  823350357948415877184,
  823350357948415877184,
  823350366879766814784,
  823350366879766814784,
  823350366742361415744,
  823350366742361415744,
  823350358085821276224,
  823350358085821276224,
  823350357948415877184,
  823350357948415877184,
  823350366879766814784,
  823350366879766814784,
  823350366879766806594,
  823350366879766806594,
  823350358085821276224,
  823350358085821276224,
  823350358085821268034,
  823350358085821268034,
  673507163027849093184,
  673507163027849093184,
  673507163027849084994,
  673507163027849084994,
  673507154233903554624,
  673507154233903554624,
  673507154233903546434,
  673507154233903546434,
  823350366879766814784,
  823350366879766814784,
  823350366879766806594,
  823350366879766806594,
  823350358085821276224,
  823350358085821276224,
  823350358085821268034,
  823350358085821268034,
  823350366879766814784,
  823350366879766814784,
  823350366879766806594,
  823350366879766806594,
  823350358085821276224,
  823350358085821276224,
  823350358085821268034,
  823350358085821268034,
  821045086820506542144,
  821045086820506542144,
  821045086820472995904,
  821045086820472995904,
  821045078026561003584,
  821045078026561003584,
  821045078026527457344,
  821045078026527457344,
  675812443087109365824,
  675812443087109365824,
  675812443087075819584,
  675812443087075819584,
  675812434293163827264,
  675812434293163827264,
  675812434293130281024,
  675812434293130281024,
  673507163027849093184,
  673507163027849093184,
  673507163027815546944,
  673507163027815546944,
  673507154233903554624,
  673507154233903554624,
  673507154233870008384,
  673507154233870008384,
  821045086820506542144,
  821045086820506542144,
  821045086683101143104,
  821045086683101143104,
  821045078026561003584,
  821045078026561003584,
  821045077889155604544,
  821045077889155604544,
  675812443087109365824,
  675812443087109365824,
  675812442949703966784,
  675812442949703966784]
def ccdq_t4_aaaaaaaa_flip_cert_1 : List Nat := [675812434293163827264,
  675812434293163827264,
  675812434155758428224,
  675812434155758428224,
  673507163027849093184,
  673507163027849093184,
  673507162890443694144,
  673507162890443694144,
  673507154233903554624,
  673507154233903554624,
  673507154096498155584,
  673507154096498155584,
  821045086820506542144,
  821045086820506542144,
  821045086820439433284,
  821045086820439433284,
  821045078026561003584,
  821045078026561003584,
  821045078026493894724,
  821045078026493894724,
  675812443087109365824,
  675812443087109365824,
  675812443087042256964,
  675812443087042256964,
  675812434293163827264,
  675812434293163827264,
  675812434293096718404,
  675812434293096718404,
  673507163027849093184,
  673507163027849093184,
  673507163027781984324,
  673507163027781984324,
  673507154233903554624,
  673507154233903554624,
  673507154233836445764,
  673507154233836445764,
  821045086820506542144,
  821045086820506542144,
  821045086818359582784,
  821045086818359582784,
  823350366879766814784,
  823350366879766814784,
  823350366742361415744,
  823350366742361415744,
  823350366877619855424,
  823350366877619855424,
  823350366740214456384,
  823350366740214456384,
  673507163027849093184,
  673507163027849093184,
  673507162890443694144,
  673507162890443694144,
  673507163025702133824,
  673507163025702133824,
  673507162888296734784,
  673507162888296734784,
  821045086820506542144,
  821045086820506542144,
  821045086683101143104,
  821045086683101143104,
  821045086818359582784,
  821045086818359582784,
  821045086680954183744,
  821045086680954183744,
  823350366879766814784,
  823350366879766814784,
  823350366879766806594,
  823350366879766806594,
  823350366877619855424,
  823350366877619855424,
  823350366877619847234,
  823350366877619847234,
  673507163027849093184,
  673507163027849093184,
  673507163027849084994,
  673507163027849084994,
  673507163025702133824,
  673507163025702133824,
  673507163025702125634,
  673507163025702125634,
  821045086820506542144,
  821045086820506542144,
  821045086820506533954,
  821045086820506533954,
  821045086818359582784,
  821045086818359582784,
  821045086818359574594,
  821045086818359574594,
  821045086820506542144,
  821045086820506542144,
  821045086820506017984,
  821045086820506017984,
  823350366879766814784,
  823350366879766814784,
  823350366742361415744,
  823350366742361415744,
  823350366879766290624,
  823350366879766290624,
  823350366742360891584,
  823350366742360891584,
  673507163027849093184,
  673507163027849093184,
  673507162890443694144,
  673507162890443694144,
  673507163027848569024,
  673507163027848569024,
  673507162890443169984,
  673507162890443169984,
  821045086820506542144,
  821045086820506542144,
  821045086683101143104,
  821045086683101143104,
  821045086820506017984,
  821045086820506017984,
  821045086683100618944,
  821045086683100618944,
  823350366879766814784,
  823350366879766814784,
  823350366879766806594,
  823350366879766806594,
  823350366879766290624,
  823350366879766290624,
  823350366879766282434,
  823350366879766282434,
  673507163027849093184,
  673507163027849093184,
  673507163027849084994,
  673507163027849084994,
  673507163027848569024,
  673507163027848569024,
  673507163027848560834,
  673507163027848560834,
  821045086820506542144,
  821045086820506542144,
  821045086820506533954,
  821045086820506533954,
  821045086820506017984,
  821045086820506017984,
  821045086820506009794,
  821045086820506009794,
  821045086820506542144,
  821045086820506542144,
  821045069228321546304,
  821045069228321546304,
  823350366879766814784,
  823350366879766814784,
  823350366742361415744,
  823350366742361415744,
  823350349287581818944,
  823350349287581818944,
  823350349150176419904,
  823350349150176419904,
  673507163027849093184,
  673507163027849093184,
  673507162890443694144,
  673507162890443694144,
  673507145435664097344,
  673507145435664097344,
  673507145298258698304,
  673507145298258698304,
  821045086820506542144,
  821045086820506542144,
  821045086683101143104,
  821045086683101143104,
  821045069228321546304,
  821045069228321546304,
  821045069090916147264,
  821045069090916147264,
  823350366879766814784,
  823350366879766814784,
  823350366879766806594,
  823350366879766806594,
  823350349287581818944,
  823350349287581818944,
  823350349287581810754,
  823350349287581810754,
  673507163027849093184,
  673507163027849093184,
  673507163027849084994,
  673507163027849084994,
  673507145435664097344,
  673507145435664097344,
  673507145435664089154,
  673507145435664089154,
  821045086820506542144,
  821045086820506542144,
  821045086820506533954,
  821045086820506533954,
  821045069228321546304,
  821045069228321546304,
  821045069228321538114,
  821045069228321538114,
  11531498049961205824,
  11531498049961205824,
  11531498049961197634,
  11531498049961197634,
  11531498047814246464,
  11531498047814246464,
  11531498047814238274,
  11531498047814238274,
  11531498049961205824,
  11531498049961205824,
  11531498049961197634,
  11531498049961197634,
  11531498049961205824,
  11531498049961205824,
  11531498049894096964,
  11531498049894096964,
  11531498047814246464,
  11531498047814246464,
  11531498047747137604,
  11531498047747137604,
  11531498049961205824,
  11531498049961205824,
  11531498049894096964,
  11531498049894096964,
  11531498049961205824,
  11531498049961205824,
  11531498049927659584,
  11531498049927659584,
  11531498047814246464,
  11531498047814246464,
  11531498047780700224,
  11531498047780700224,
  11531498049961205824,
  11531498049961205824,
  11531498049927659584,
  11531498049927659584,
  11531498049961205824,
  11531498049961205824,
  11531497637644345414,
  11531497637644345414,
  11531498047814246464,
  11531498047814246464,
  11531497635497386054,
  11531497635497386054,
  11531498049961205824,
  11531498049961205824,
  11531497637644345414,
  11531497637644345414,
  11531498049961205824,
  11531498049961205824,
  11531497775083315264,
  11531497775083315264,
  11531498047814246464,
  11531498047814246464,
  11531497772936355904,
  11531497772936355904,
  11531498049961205824,
  11531498049961205824,
  11531497775083315264,
  11531497775083315264,
  11531498049961205824,
  11531498049961205824,
  11531497912555806784,
  11531497912555806784,
  11531498047814246464,
  11531498047814246464,
  11531497910408847424,
  11531497910408847424,
  11531498049961205824,
  11531498049961205824,
  11531497912555806784,
  11531497912555806784,
  164412590478073920,
  164412590478073920,
  164412590478065730,
  164412590478065730,
  164412588331114560,
  164412588331114560,
  164412588331106370,
  164412588331106370,
  164412590478073920,
  164412590478073920,
  164412453072674880,
  164412453072674880,
  164412588331114560,
  164412588331114560,
  164412450925715520,
  164412450925715520,
  164412590478073920,
  164412590478073920,
  164412590478065730,
  164412590478065730,
  164412590477549760,
  164412590477549760,
  164412590477541570,
  164412590477541570,
  164412590478073920,
  164412590478073920,
  164412453072674880,
  164412453072674880,
  164412590477549760,
  164412590477549760,
  164412453072150720,
  164412453072150720,
  164412590478073920,
  164412590478073920,
  164412590478065730,
  164412590478065730,
  164412588331114560,
  164412588331114560,
  164412588331106370,
  164412588331106370,
  164412590478073920,
  164412590478073920,
  164412590478065730,
  164412590478065730,
  164412590477549760,
  164412590477549760,
  164412590477541570,
  164412590477541570,
  164412590478073920,
  164412590478073920,
  164412590410965060,
  164412590410965060,
  164412588331114560,
  164412588331114560,
  164412588264005700,
  164412588264005700,
  164412590478073920,
  164412590478073920,
  164412590478065730,
  164412590478065730,
  164412588331114560,
  164412588331114560,
  164412588331106370,
  164412588331106370,
  164412590478073920,
  164412590478073920,
  164412590410965060,
  164412590410965060,
  164412590477549760,
  164412590477549760,
  164412590410440900,
  164412590410440900,
  164412590478073920,
  164412590478073920,
  164412590478065730,
  164412590478065730,
  164412590477549760,
  164412590477549760,
  164412590477541570,
  164412590477541570,
  164412590478073920,
  164412590478073920,
  164412590444527680,
  164412590444527680,
  164412588331114560,
  164412588331114560,
  164412588297568320,
  164412588297568320,
  164412590478073920,
  164412590478073920,
  164412590444527680,
  164412590444527680,
  164412590477549760,
  164412590477549760,
  164412590444003520,
  164412590444003520,
  164412590478073920,
  164412590478073920,
  164412590478065730,
  164412590478065730,
  164412586183106880,
  164412586183106880,
  164412586183098690,
  164412586183098690,
  164412590478073920,
  164412590478073920,
  164412453072674880,
  164412453072674880,
  164412586183106880,
  164412586183106880,
  164412448777707840,
  164412448777707840,
  164412590478073920,
  164412590478073920,
  164412590478065730,
  164412590478065730,
  164412586183106880,
  164412586183106880,
  164412586183098690,
  164412586183098690,
  164412590478073920,
  164412590478073920,
  164412590410965060,
  164412590410965060,
  164412586183106880,
  164412586183106880,
  164412586115998020,
  164412586115998020,
  164412590478073920,
  164412590478073920,
  164412590478065730,
  164412590478065730,
  164412586183106880,
  164412586183106880,
  164412586183098690,
  164412586183098690]
def ccdq_t4_aaaaaaaa_flip_cert_2 : List Nat := [164412590478073920,
  164412590478073920,
  164412590444527680,
  164412590444527680,
  164412586183106880,
  164412586183106880,
  164412586149560640,
  164412586149560640,
  164412590478073920,
  164412590478073920,
  164412590478065730,
  164412590478065730,
  164412590477549760,
  164412590477549760,
  164412590477541570,
  164412590477541570,
  164412590478073920,
  164412590478073920,
  164412453072674880,
  164412453072674880,
  164412590477549760,
  164412590477549760,
  164412453072150720,
  164412453072150720,
  164412590478073920,
  164412590478073920,
  164412590478065730,
  164412590478065730,
  164403796532535360,
  164403796532535360,
  164403796532527170,
  164403796532527170,
  164412590478073920,
  164412590478073920,
  164412453072674880,
  164412453072674880,
  164403796532535360,
  164403796532535360,
  164403659127136320,
  164403659127136320,
  164412590478073920,
  164412590478073920,
  164412590478065730,
  164412590478065730,
  164412590477549760,
  164412590477549760,
  164412590477541570,
  164412590477541570,
  164412590478073920,
  164412590478073920,
  164412590478065730,
  164412590478065730,
  164403796532535360,
  164403796532535360,
  164403796532527170,
  164403796532527170,
  164412590478073920,
  164412590478073920,
  164412590410965060,
  164412590410965060,
  164412590477549760,
  164412590477549760,
  164412590410440900,
  164412590410440900,
  164412590478073920,
  164412590478073920,
  164412590478065730,
  164412590478065730,
  164412590477549760,
  164412590477549760,
  164412590477541570,
  164412590477541570,
  164412590478073920,
  164412590478073920,
  164412590410965060,
  164412590410965060,
  164403796532535360,
  164403796532535360,
  164403796465426500,
  164403796465426500,
  164412590478073920,
  164412590478073920,
  164412590478065730,
  164412590478065730,
  164403796532535360,
  164403796532535360,
  164403796532527170,
  164403796532527170,
  164412590478073920,
  164412590478073920,
  164412590444527680,
  164412590444527680,
  164412590477549760,
  164412590477549760,
  164412590444003520,
  164412590444003520,
  164412590478073920,
  164412590478073920,
  164412590444527680,
  164412590444527680,
  164403796532535360,
  164403796532535360,
  164403796498989120,
  164403796498989120,
  164412590478073920,
  164412590478073920,
  164412590478065730,
  164412590478065730,
  164412590477549760,
  164412590477549760,
  164412590477541570,
  164412590477541570,
  164412590478073920,
  164412590478073920,
  164412453072674880,
  164412453072674880,
  164412590477549760,
  164412590477549760,
  164412453072150720,
  164412453072150720,
  164412590478073920,
  164412590478073920,
  164412590478065730,
  164412590478065730,
  164412590477549760,
  164412590477549760,
  164412590477541570,
  164412590477541570,
  164412590478073920,
  164412590478073920,
  164412590410965060,
  164412590410965060,
  164412590477549760,
  164412590477549760,
  164412590410440900,
  164412590410440900,
  164412590478073920,
  164412590478073920,
  164412590478065730,
  164412590478065730,
  164412590477549760,
  164412590477549760,
  164412590477541570,
  164412590477541570,
  164412590478073920,
  164412590478073920,
  164412590444527680,
  164412590444527680,
  164412590477549760,
  164412590477549760,
  164412590444003520,
  164412590444003520,
  811818900033884659776,
  811818900033884659776,
  811818900033851113536,
  811818900033851113536,
  811818900031737700416,
  811818900031737700416,
  811818900031704154176,
  811818900031704154176,
  811818900033884659776,
  811818900033884659776,
  811818899896479260736,
  811818899896479260736,
  811818900031737700416,
  811818900031737700416,
  811818899894332301376,
  811818899894332301376,
  811818900033884659776,
  811818900033884659776,
  811818900033817550916,
  811818900033817550916,
  811818900031737700416,
  811818900031737700416,
  811818900031670591556,
  811818900031670591556,
  811818900033884659776,
  811818900033884659776,
  811818900033851113536,
  811818900033851113536,
  811818900033884135616,
  811818900033884135616,
  811818900033850589376,
  811818900033850589376,
  811818900033884659776,
  811818900033884659776,
  811818899896479260736,
  811818899896479260736,
  811818900033884135616,
  811818900033884135616,
  811818899896478736576,
  811818899896478736576,
  811818900033884659776,
  811818900033884659776,
  811818900033817550916,
  811818900033817550916,
  811818900033884135616,
  811818900033884135616,
  811818900033817026756,
  811818900033817026756,
  811818900033884659776,
  811818900033884659776,
  811818900033851113536,
  811818900033851113536,
  811818882441699663936,
  811818882441699663936,
  811818882441666117696,
  811818882441666117696,
  811818900033884659776,
  811818900033884659776,
  811818899896479260736,
  811818899896479260736,
  811818882441699663936,
  811818882441699663936,
  811818882304294264896,
  811818882304294264896,
  811818900033884659776,
  811818900033884659776,
  811818900033817550916,
  811818900033817550916,
  811818882441699663936,
  811818882441699663936,
  811818882441632555076,
  811818882441632555076,
  823350366879766814784,
  823350366879766814784,
  823350366879766806594,
  823350366879766806594,
  823350366877619855424,
  823350366877619855424,
  823350366877619847234,
  823350366877619847234,
  823350366879766814784,
  823350366879766814784,
  823350366879766806594,
  823350366879766806594,
  823350366879766814784,
  823350366879766814784,
  823350366879699705924,
  823350366879699705924,
  823350366877619855424,
  823350366877619855424,
  823350366877552746564,
  823350366877552746564,
  823350366879766814784,
  823350366879766814784,
  823350366879699705924,
  823350366879699705924,
  823350366879766814784,
  823350366879766814784,
  823350366879733268544,
  823350366879733268544,
  823350366877619855424,
  823350366877619855424,
  823350366877586309184,
  823350366877586309184,
  823350366879766814784,
  823350366879766814784,
  823350366879733268544,
  823350366879733268544,
  823350366879766814784,
  823350366879766814784,
  823350366467449954374,
  823350366467449954374,
  823350366877619855424,
  823350366877619855424,
  823350366465302995014,
  823350366465302995014,
  823350366879766814784,
  823350366879766814784,
  823350366467449954374,
  823350366467449954374,
  823350366879766814784,
  823350366879766814784,
  823350366604888924224,
  823350366604888924224,
  823350366877619855424,
  823350366877619855424,
  823350366602741964864,
  823350366602741964864,
  823350366879766814784,
  823350366879766814784,
  823350366604888924224,
  823350366604888924224,
  823350366879766814784,
  823350366879766814784,
  823350366742361415744,
  823350366742361415744,
  823350366877619855424,
  823350366877619855424,
  823350366740214456384,
  823350366740214456384,
  823350366879766814784,
  823350366879766814784,
  823350366742361415744,
  823350366742361415744,
  823350366879766814784,
  823350366879766814784,
  823350366879766806594,
  823350366879766806594,
  823350366877619855424,
  823350366877619855424,
  823350366877619847234,
  823350366877619847234,
  823350366879766814784,
  823350366879766814784,
  823350366879766806594,
  823350366879766806594,
  823350366877619855424,
  823350366877619855424,
  823350366877619847234,
  823350366877619847234,
  823350366879766814784,
  823350366879766814784,
  823350366742361415744,
  823350366742361415744,
  823350366877619855424,
  823350366877619855424,
  823350366740214456384,
  823350366740214456384,
  823350366879766814784,
  823350366879766814784,
  823350366742361415744,
  823350366742361415744,
  823350366877619855424,
  823350366877619855424,
  823350366740214456384,
  823350366740214456384,
  823350366879766814784,
  823350366879766814784,
  823350366879766806594,
  823350366879766806594,
  823350366879766290624,
  823350366879766290624,
  823350366879766282434,
  823350366879766282434,
  823350366879766814784,
  823350366879766814784,
  823350366879766806594,
  823350366879766806594,
  823350366879766290624,
  823350366879766290624,
  823350366879766282434,
  823350366879766282434,
  823350366879766814784,
  823350366879766814784,
  823350366742361415744,
  823350366742361415744,
  823350366879766290624,
  823350366879766290624,
  823350366742360891584,
  823350366742360891584,
  823350366879766814784,
  823350366879766814784,
  823350366742361415744,
  823350366742361415744,
  823350366879766290624,
  823350366879766290624,
  823350366742360891584,
  823350366742360891584,
  823350366879766814784,
  823350366879766814784,
  823350366879766806594,
  823350366879766806594,
  823350366877619855424,
  823350366877619855424,
  823350366877619847234,
  823350366877619847234,
  823350366879766814784,
  823350366879766814784,
  823350366879766806594,
  823350366879766806594,
  823350366877619855424,
  823350366877619855424,
  823350366877619847234,
  823350366877619847234,
  823350366879766814784,
  823350366879766814784,
  823350366879766806594,
  823350366879766806594,
  823350366879766290624,
  823350366879766290624,
  823350366879766282434,
  823350366879766282434,
  823350366879766814784,
  823350366879766814784,
  823350366879766806594,
  823350366879766806594,
  823350366879766290624,
  823350366879766290624,
  823350366879766282434,
  823350366879766282434,
  823350366879766814784,
  823350366879766814784,
  823350366879699705924,
  823350366879699705924,
  823350366877619855424,
  823350366877619855424,
  823350366877552746564,
  823350366877552746564]
def ccdq_t4_aaaaaaaa_flip_cert_3 : List Nat := [823350366879766814784,
  823350366879766814784,
  823350366879699705924,
  823350366879699705924,
  823350366877619855424,
  823350366877619855424,
  823350366877552746564,
  823350366877552746564,
  823350366879766814784,
  823350366879766814784,
  823350366879766806594,
  823350366879766806594,
  823350366877619855424,
  823350366877619855424,
  823350366877619847234,
  823350366877619847234,
  823350366879766814784,
  823350366879766814784,
  823350366879766806594,
  823350366879766806594,
  823350366877619855424,
  823350366877619855424,
  823350366877619847234,
  823350366877619847234,
  823350366879766814784,
  823350366879766814784,
  823350366879699705924,
  823350366879699705924,
  823350366879766290624,
  823350366879766290624,
  823350366879699181764,
  823350366879699181764,
  823350366879766814784,
  823350366879766814784,
  823350366879699705924,
  823350366879699705924,
  823350366879766290624,
  823350366879766290624,
  823350366879699181764,
  823350366879699181764,
  823350366879766814784,
  823350366879766814784,
  823350366879766806594,
  823350366879766806594,
  823350366879766290624,
  823350366879766290624,
  823350366879766282434,
  823350366879766282434,
  823350366879766814784,
  823350366879766814784,
  823350366879766806594,
  823350366879766806594,
  823350366879766290624,
  823350366879766290624,
  823350366879766282434,
  823350366879766282434,
  823350366879766814784,
  823350366879766814784,
  823350366879733268544,
  823350366879733268544,
  823350366877619855424,
  823350366877619855424,
  823350366877586309184,
  823350366877586309184,
  823350366879766814784,
  823350366879766814784,
  823350366879733268544,
  823350366879733268544,
  823350366877619855424,
  823350366877619855424,
  823350366877586309184,
  823350366877586309184,
  823350366879766814784,
  823350366879766814784,
  823350366879733268544,
  823350366879733268544,
  823350366879766290624,
  823350366879766290624,
  823350366879732744384,
  823350366879732744384,
  823350366879766814784,
  823350366879766814784,
  823350366879733268544,
  823350366879733268544,
  823350366879766290624,
  823350366879766290624,
  823350366879732744384,
  823350366879732744384,
  823350366879766814784,
  823350366879766814784,
  823350366879766806594,
  823350366879766806594,
  823350366877619855424,
  823350366877619855424,
  823350366877619847234,
  823350366877619847234,
  675812443087109365824,
  675812443087109365824,
  675812443087109357634,
  675812443087109357634,
  675812443084962406464,
  675812443084962406464,
  675812443084962398274,
  675812443084962398274,
  821045086820506542144,
  821045086820506542144,
  821045086820472995904,
  821045086820472995904,
  821045086818359582784,
  821045086818359582784,
  821045086818326036544,
  821045086818326036544,
  823350366879766814784,
  823350366879766814784,
  823350366879766806594,
  823350366879766806594,
  823350366879766290624,
  823350366879766290624,
  823350366879766282434,
  823350366879766282434,
  675812443087109365824,
  675812443087109365824,
  675812443087109357634,
  675812443087109357634,
  675812443087108841664,
  675812443087108841664,
  675812443087108833474,
  675812443087108833474,
  821045086820506542144,
  821045086820506542144,
  821045086820472995904,
  821045086820472995904,
  821045086820506017984,
  821045086820506017984,
  821045086820472471744,
  821045086820472471744,
  823350366879766814784,
  823350366879766814784,
  823350366879699705924,
  823350366879699705924,
  823350366877619855424,
  823350366877619855424,
  823350366877552746564,
  823350366877552746564,
  675812443087109365824,
  675812443087109365824,
  675812443087042256964,
  675812443087042256964,
  675812443084962406464,
  675812443084962406464,
  675812443084895297604,
  675812443084895297604,
  823350366879766814784,
  823350366879766814784,
  823350366879699705924,
  823350366879699705924,
  823350366879766290624,
  823350366879766290624,
  823350366879699181764,
  823350366879699181764,
  675812443087109365824,
  675812443087109365824,
  675812443087042256964,
  675812443087042256964,
  675812443087108841664,
  675812443087108841664,
  675812443087041732804,
  675812443087041732804,
  823350366879766814784,
  823350366879766814784,
  823350366879733268544,
  823350366879733268544,
  823350366877619855424,
  823350366877619855424,
  823350366877586309184,
  823350366877586309184,
  675812443087109365824,
  675812443087109365824,
  675812443087075819584,
  675812443087075819584,
  675812443084962406464,
  675812443084962406464,
  675812443084928860224,
  675812443084928860224,
  821045086820506542144,
  821045086820506542144,
  821045086683101143104,
  821045086683101143104,
  821045086818359582784,
  821045086818359582784,
  821045086680954183744,
  821045086680954183744,
  823350366879766814784,
  823350366879766814784,
  823350366879733268544,
  823350366879733268544,
  823350366879766290624,
  823350366879766290624,
  823350366879732744384,
  823350366879732744384,
  675812443087109365824,
  675812443087109365824,
  675812443087075819584,
  675812443087075819584,
  675812443087108841664,
  675812443087108841664,
  675812443087075295424,
  675812443087075295424,
  821045086820506542144,
  821045086820506542144,
  821045086683101143104,
  821045086683101143104,
  821045086820506017984,
  821045086820506017984,
  821045086683100618944,
  821045086683100618944,
  823350366879766814784,
  823350366879766814784,
  823350366467449954374,
  823350366467449954374,
  823350366877619855424,
  823350366877619855424,
  823350366465302995014,
  823350366465302995014,
  675812443087109365824,
  675812443087109365824,
  675812442674792505414,
  675812442674792505414,
  675812443084962406464,
  675812443084962406464,
  675812442672645546054,
  675812442672645546054,
  821045086820506542144,
  821045086820506542144,
  821045086820439433284,
  821045086820439433284,
  821045086818359582784,
  821045086818359582784,
  821045086818292473924,
  821045086818292473924,
  823350366879766814784,
  823350366879766814784,
  823350366467449954374,
  823350366467449954374,
  823350366879766290624,
  823350366879766290624,
  823350366467449430214,
  823350366467449430214,
  675812443087109365824,
  675812443087109365824,
  675812442674792505414,
  675812442674792505414,
  675812443087108841664,
  675812443087108841664,
  675812442674791981254,
  675812442674791981254,
  821045086820506542144,
  821045086820506542144,
  821045086820439433284,
  821045086820439433284,
  821045086820506017984,
  821045086820506017984,
  821045086820438909124,
  821045086820438909124,
  823350366879766814784,
  823350366879766814784,
  823350366604888924224,
  823350366604888924224,
  823350366877619855424,
  823350366877619855424,
  823350366602741964864,
  823350366602741964864,
  675812443087109365824,
  675812443087109365824,
  675812442812231475264,
  675812442812231475264,
  675812443084962406464,
  675812443084962406464,
  675812442810084515904,
  675812442810084515904,
  823350366879766814784,
  823350366879766814784,
  823350366604888924224,
  823350366604888924224,
  823350366879766290624,
  823350366879766290624,
  823350366604888400064,
  823350366604888400064,
  675812443087109365824,
  675812443087109365824,
  675812442812231475264,
  675812442812231475264,
  675812443087108841664,
  675812443087108841664,
  675812442812230951104,
  675812442812230951104,
  823350366879766814784,
  823350366879766814784,
  823350366742361415744,
  823350366742361415744,
  823350366877619855424,
  823350366877619855424,
  823350366740214456384,
  823350366740214456384,
  675812443087109365824,
  675812443087109365824,
  675812442949703966784,
  675812442949703966784,
  675812443084962406464,
  675812443084962406464,
  675812442947557007424,
  675812442947557007424,
  823350366879766814784,
  823350366879766814784,
  823350366742361415744,
  823350366742361415744,
  823350366879766290624,
  823350366879766290624,
  823350366742360891584,
  823350366742360891584,
  675812443087109365824,
  675812443087109365824,
  675812442949703966784,
  675812442949703966784,
  675812443087108841664,
  675812443087108841664,
  675812442949703442624,
  675812442949703442624,
  823350366879766814784,
  823350366879766814784,
  823350366879766806594,
  823350366879766806594,
  823350366879766814784,
  823350366879766814784,
  823350366879766806594,
  823350366879766806594,
  823350366879766814784,
  823350366879766814784,
  823350366742361415744,
  823350366742361415744,
  823350366879766814784,
  823350366879766814784,
  823350366742361415744,
  823350366742361415744,
  823350366879766814784,
  823350366879766814784,
  823350366879766806594,
  823350366879766806594,
  823350366879766814784,
  823350366879766814784,
  823350366879766806594,
  823350366879766806594,
  823350366879766814784,
  823350366879766814784,
  823350366879699705924,
  823350366879699705924,
  823350366879766814784,
  823350366879766814784,
  823350366879699705924,
  823350366879699705924,
  823350366879766814784,
  823350366879766814784,
  823350366879766806594,
  823350366879766806594,
  823350366879766814784,
  823350366879766814784,
  823350366879766806594,
  823350366879766806594,
  823350366879766814784,
  823350366879766814784,
  823350366879733268544,
  823350366879733268544,
  823350366879766814784,
  823350366879766814784,
  823350366879733268544,
  823350366879733268544,
  823350366879766814784,
  823350366879766814784,
  823350366879766806594,
  823350366879766806594,
  675812443087109365824,
  675812443087109365824,
  675812443087109357634,
  675812443087109357634,
  821045086820506542144,
  821045086820506542144,
  821045086820472995904,
  821045086820472995904,
  823350366879766814784,
  823350366879766814784,
  823350366879699705924,
  823350366879699705924,
  675812443087109365824,
  675812443087109365824,
  675812443087042256964,
  675812443087042256964,
  823350366879766814784,
  823350366879766814784,
  823350366879733268544,
  823350366879733268544]
def ccdq_t4_aaaaaaaa_flip_cert_4 : List Nat := [675812443087109365824,
  675812443087109365824,
  675812443087075819584,
  675812443087075819584,
  821045086820506542144,
  821045086820506542144,
  821045086683101143104,
  821045086683101143104,
  823350366879766814784,
  823350366879766814784,
  823350366467449954374,
  823350366467449954374,
  675812443087109365824,
  675812443087109365824,
  675812442674792505414,
  675812442674792505414,
  821045086820506542144,
  821045086820506542144,
  821045086820439433284,
  821045086820439433284,
  823350366879766814784,
  823350366879766814784,
  823350366604888924224,
  823350366604888924224,
  675812443087109365824,
  675812443087109365824,
  675812442812231475264,
  675812442812231475264,
  823350366879766814784,
  823350366879766814784,
  823350366742361415744,
  823350366742361415744,
  675812443087109365824,
  675812443087109365824,
  675812442949703966784,
  675812442949703966784,
  823350366879766814784,
  823350366879766814784,
  823350366879766806594,
  823350366879766806594,
  823350366879766814784,
  823350366879766814784,
  823350366879766806594,
  823350366879766806594,
  823350366879766814784,
  823350366879766814784,
  823350366742361415744,
  823350366742361415744,
  823350366879766814784,
  823350366879766814784,
  823350366742361415744,
  823350366742361415744,
  823350366879766814784,
  823350366879766814784,
  823350366879766806594,
  823350366879766806594,
  823350366879766814784,
  823350366879766814784,
  823350366879766806594,
  823350366879766806594,
  823350366879766814784,
  823350366879766814784,
  823350366879699705924,
  823350366879699705924,
  823350366879766814784,
  823350366879766814784,
  823350366879699705924,
  823350366879699705924,
  823350366879766814784,
  823350366879766814784,
  823350366879766806594,
  823350366879766806594,
  823350366879766814784,
  823350366879766814784,
  823350366879766806594,
  823350366879766806594,
  823350366879766814784,
  823350366879766814784,
  823350366879733268544,
  823350366879733268544,
  823350366879766814784,
  823350366879766814784,
  823350366879733268544,
  823350366879733268544,
  823350366879766814784,
  823350366879766814784,
  823350366879766806594,
  823350366879766806594,
  675812443087109365824,
  675812443087109365824,
  675812443087109357634,
  675812443087109357634,
  821045086820506542144,
  821045086820506542144,
  821045086820472995904,
  821045086820472995904,
  823350366879766814784,
  823350366879766814784,
  823350366879699705924,
  823350366879699705924,
  675812443087109365824,
  675812443087109365824,
  675812443087042256964,
  675812443087042256964,
  823350366879766814784,
  823350366879766814784,
  823350366879733268544,
  823350366879733268544,
  675812443087109365824,
  675812443087109365824,
  675812443087075819584,
  675812443087075819584,
  821045086820506542144,
  821045086820506542144,
  821045086683101143104,
  821045086683101143104,
  823350366879766814784,
  823350366879766814784,
  823350366467449954374,
  823350366467449954374,
  675812443087109365824,
  675812443087109365824,
  675812442674792505414,
  675812442674792505414,
  821045086820506542144,
  821045086820506542144,
  821045086820439433284,
  821045086820439433284,
  823350366879766814784,
  823350366879766814784,
  823350366604888924224,
  823350366604888924224,
  675812443087109365824,
  675812443087109365824,
  675812442812231475264,
  675812442812231475264,
  823350366879766814784,
  823350366879766814784,
  823350366742361415744,
  823350366742361415744,
  675812443087109365824,
  675812443087109365824,
  675812442949703966784,
  675812442949703966784,
  2283003892736064,
  2283003892736064,
  2282866487337024,
  2282866487337024,
  2283003892736064,
  2283003892736064,
  2283003892727874,
  2283003892727874,
  162160790664388672,
  162160790664388672,
  162160790663864512,
  162160790663864512,
  162160790664388672,
  162160790664388672,
  162151996718850112,
  162151996718850112,
  9226217990700933184,
  9226217990700933184,
  9226217990667386944,
  9226217990667386944,
  9226217990700933184,
  9226217990700933184,
  9226217853295534144,
  9226217853295534144,
  9226217990700933184,
  9226217990700933184,
  9226217990633824324,
  9226217990633824324,
  164412590478073920,
  164412590478073920,
  164412453072674880,
  164412453072674880,
  164412590477549760,
  164412590477549760,
  164412453072150720,
  164412453072150720,
  164412590478073920,
  164412590478073920,
  164412453072674880,
  164412453072674880,
  164412590477549760,
  164412590477549760,
  164412453072150720,
  164412453072150720,
  164412590478073920,
  164412590478073920,
  164412590478065730,
  164412590478065730,
  164412590477549760,
  164412590477549760,
  164412590477541570,
  164412590477541570,
  164412590478073920,
  164412590478073920,
  164412590478065730,
  164412590478065730,
  164412590477549760,
  164412590477549760,
  164412590477541570,
  164412590477541570,
  164412590478073920,
  164412590478073920,
  164412453072674880,
  164412453072674880,
  164403796532535360,
  164403796532535360,
  164403659127136320,
  164403659127136320,
  164412590478073920,
  164412590478073920,
  164412453072674880,
  164412453072674880,
  164403796532535360,
  164403796532535360,
  164403659127136320,
  164403659127136320,
  164412590478073920,
  164412590478073920,
  164412590478065730,
  164412590478065730,
  164403796532535360,
  164403796532535360,
  164403796532527170,
  164403796532527170,
  164412590478073920,
  164412590478073920,
  164412590478065730,
  164412590478065730,
  164403796532535360,
  164403796532535360,
  164403796532527170,
  164403796532527170,
  811818900033884659776,
  811818900033884659776,
  811818900031737700416,
  811818900031737700416,
  811818900033884659776,
  811818900033884659776,
  811818900033884135616,
  811818900033884135616,
  811818900033884659776,
  811818900033884659776,
  811818882441699663936,
  811818882441699663936,
  823350366879766814784,
  823350366879766814784,
  823350366742361415744,
  823350366742361415744,
  675812443087109365824,
  675812443087109365824,
  675812442949703966784,
  675812442949703966784,
  823350366879766814784,
  823350366879766814784,
  823350366742361415744,
  823350366742361415744,
  823350366879766814784,
  823350366879766814784,
  823350366879766806594,
  823350366879766806594,
  675812443087109365824,
  675812443087109365824,
  675812443087109357634,
  675812443087109357634,
  823350366879766814784,
  823350366879766814784,
  823350366879766806594,
  823350366879766806594,
  821045086820506542144,
  821045086820506542144,
  821045086820472995904,
  821045086820472995904,
  821045086820506542144,
  821045086820506542144,
  821045086683101143104,
  821045086683101143104,
  821045086820506542144,
  821045086820506542144,
  821045086820439433284,
  821045086820439433284,
  821045086820506542144,
  821045086820506542144,
  821045086820506017984,
  821045086820506017984,
  823350366879766814784,
  823350366879766814784,
  823350366879766290624,
  823350366879766290624,
  821045086820506542144,
  821045086820506542144,
  821045086820506017984,
  821045086820506017984,
  823350366879766814784,
  823350366879766814784,
  823350366742361415744,
  823350366742361415744,
  823350366879766290624,
  823350366879766290624,
  823350366742360891584,
  823350366742360891584,
  823350366879766814784,
  823350366879766814784,
  823350366742361415744,
  823350366742361415744,
  823350366879766290624,
  823350366879766290624,
  823350366742360891584,
  823350366742360891584,
  673507163027849093184,
  673507163027849093184,
  673507162890443694144,
  673507162890443694144,
  673507163027848569024,
  673507163027848569024,
  673507162890443169984,
  673507162890443169984,
  823350366879766814784,
  823350366879766814784,
  823350366742361415744,
  823350366742361415744,
  823350366879766290624,
  823350366879766290624,
  823350366742360891584,
  823350366742360891584,
  823350366879766814784,
  823350366879766814784,
  823350366879766806594,
  823350366879766806594,
  823350366879766290624,
  823350366879766290624,
  823350366879766282434,
  823350366879766282434,
  823350366879766814784,
  823350366879766814784,
  823350366879766806594,
  823350366879766806594,
  823350366879766290624,
  823350366879766290624,
  823350366879766282434,
  823350366879766282434,
  673507163027849093184,
  673507163027849093184,
  673507163027849084994,
  673507163027849084994,
  673507163027848569024,
  673507163027848569024,
  673507163027848560834,
  673507163027848560834,
  823350366879766814784,
  823350366879766814784,
  823350366879766806594,
  823350366879766806594,
  823350366879766290624,
  823350366879766290624,
  823350366879766282434,
  823350366879766282434,
  673507163027849093184,
  673507163027849093184,
  673507163027815546944,
  673507163027815546944,
  673507163027848569024,
  673507163027848569024,
  673507163027815022784,
  673507163027815022784,
  675812443087109365824,
  675812443087109365824,
  675812443087075819584,
  675812443087075819584,
  675812443087108841664,
  675812443087108841664,
  675812443087075295424,
  675812443087075295424,
  821045086820506542144,
  821045086820506542144,
  821045086820472995904,
  821045086820472995904,
  821045086820506017984,
  821045086820506017984,
  821045086820472471744,
  821045086820472471744,
  673507163027849093184,
  673507163027849093184,
  673507162890443694144,
  673507162890443694144,
  673507163027848569024,
  673507163027848569024,
  673507162890443169984,
  673507162890443169984,
  675812443087109365824,
  675812443087109365824,
  675812442949703966784,
  675812442949703966784,
  675812443087108841664,
  675812443087108841664,
  675812442949703442624,
  675812442949703442624]
def ccdq_t4_aaaaaaaa_flip_cert_5 : List Nat := [821045086820506542144,
  821045086820506542144,
  821045086683101143104,
  821045086683101143104,
  821045086820506017984,
  821045086820506017984,
  821045086683100618944,
  821045086683100618944,
  673507163027849093184,
  673507163027849093184,
  673507163027781984324,
  673507163027781984324,
  673507163027848569024,
  673507163027848569024,
  673507163027781460164,
  673507163027781460164,
  675812443087109365824,
  675812443087109365824,
  675812443087042256964,
  675812443087042256964,
  675812443087108841664,
  675812443087108841664,
  675812443087041732804,
  675812443087041732804,
  821045086820506542144,
  821045086820506542144,
  821045086820439433284,
  821045086820439433284,
  821045086820506017984,
  821045086820506017984,
  821045086820438909124,
  821045086820438909124,
  821045086820506542144,
  821045086820506542144,
  821045078026561003584,
  821045078026561003584,
  823350366879766814784,
  823350366879766814784,
  823350358085821276224,
  823350358085821276224,
  821045086820506542144,
  821045086820506542144,
  821045078026561003584,
  821045078026561003584,
  823350366879766814784,
  823350366879766814784,
  823350366742361415744,
  823350366742361415744,
  823350358085821276224,
  823350358085821276224,
  823350357948415877184,
  823350357948415877184,
  823350366879766814784,
  823350366879766814784,
  823350366742361415744,
  823350366742361415744,
  823350358085821276224,
  823350358085821276224,
  823350357948415877184,
  823350357948415877184,
  673507163027849093184,
  673507163027849093184,
  673507162890443694144,
  673507162890443694144,
  673507154233903554624,
  673507154233903554624,
  673507154096498155584,
  673507154096498155584,
  823350366879766814784,
  823350366879766814784,
  823350366742361415744,
  823350366742361415744,
  823350358085821276224,
  823350358085821276224,
  823350357948415877184,
  823350357948415877184,
  823350366879766814784,
  823350366879766814784,
  823350366879766806594,
  823350366879766806594,
  823350358085821276224,
  823350358085821276224,
  823350358085821268034,
  823350358085821268034,
  823350366879766814784,
  823350366879766814784,
  823350366879766806594,
  823350366879766806594,
  823350358085821276224,
  823350358085821276224,
  823350358085821268034,
  823350358085821268034,
  673507163027849093184,
  673507163027849093184,
  673507163027849084994,
  673507163027849084994,
  673507154233903554624,
  673507154233903554624,
  673507154233903546434,
  673507154233903546434,
  823350366879766814784,
  823350366879766814784,
  823350366879766806594,
  823350366879766806594,
  823350358085821276224,
  823350358085821276224,
  823350358085821268034,
  823350358085821268034,
  673507163027849093184,
  673507163027849093184,
  673507163027815546944,
  673507163027815546944,
  673507154233903554624,
  673507154233903554624,
  673507154233870008384,
  673507154233870008384,
  675812443087109365824,
  675812443087109365824,
  675812443087075819584,
  675812443087075819584,
  675812434293163827264,
  675812434293163827264,
  675812434293130281024,
  675812434293130281024,
  821045086820506542144,
  821045086820506542144,
  821045086820472995904,
  821045086820472995904,
  821045078026561003584,
  821045078026561003584,
  821045078026527457344,
  821045078026527457344,
  673507163027849093184,
  673507163027849093184,
  673507162890443694144,
  673507162890443694144,
  673507154233903554624,
  673507154233903554624,
  673507154096498155584,
  673507154096498155584,
  675812443087109365824,
  675812443087109365824,
  675812442949703966784,
  675812442949703966784,
  675812434293163827264,
  675812434293163827264,
  675812434155758428224,
  675812434155758428224,
  821045086820506542144,
  821045086820506542144,
  821045086683101143104,
  821045086683101143104,
  821045078026561003584,
  821045078026561003584,
  821045077889155604544,
  821045077889155604544,
  673507163027849093184,
  673507163027849093184,
  673507163027781984324,
  673507163027781984324,
  673507154233903554624,
  673507154233903554624,
  673507154233836445764,
  673507154233836445764,
  675812443087109365824,
  675812443087109365824,
  675812443087042256964,
  675812443087042256964,
  675812434293163827264,
  675812434293163827264,
  675812434293096718404,
  675812434293096718404,
  821045086820506542144,
  821045086820506542144,
  821045086820439433284,
  821045086820439433284,
  821045078026561003584,
  821045078026561003584,
  821045078026493894724,
  821045078026493894724,
  821045086820506542144,
  821045086820506542144,
  821045086818359582784,
  821045086818359582784,
  821045086820506542144,
  821045086820506542144,
  821045086683101143104,
  821045086683101143104,
  821045086818359582784,
  821045086818359582784,
  821045086680954183744,
  821045086680954183744,
  673507163027849093184,
  673507163027849093184,
  673507162890443694144,
  673507162890443694144,
  673507163025702133824,
  673507163025702133824,
  673507162888296734784,
  673507162888296734784,
  823350366879766814784,
  823350366879766814784,
  823350366742361415744,
  823350366742361415744,
  823350366877619855424,
  823350366877619855424,
  823350366740214456384,
  823350366740214456384,
  821045086820506542144,
  821045086820506542144,
  821045086820506533954,
  821045086820506533954,
  821045086818359582784,
  821045086818359582784,
  821045086818359574594,
  821045086818359574594,
  673507163027849093184,
  673507163027849093184,
  673507163027849084994,
  673507163027849084994,
  673507163025702133824,
  673507163025702133824,
  673507163025702125634,
  673507163025702125634,
  823350366879766814784,
  823350366879766814784,
  823350366879766806594,
  823350366879766806594,
  823350366877619855424,
  823350366877619855424,
  823350366877619847234,
  823350366877619847234,
  821045086820506542144,
  821045086820506542144,
  821045086820506017984,
  821045086820506017984,
  821045086820506542144,
  821045086820506542144,
  821045086683101143104,
  821045086683101143104,
  821045086820506017984,
  821045086820506017984,
  821045086683100618944,
  821045086683100618944,
  673507163027849093184,
  673507163027849093184,
  673507162890443694144,
  673507162890443694144,
  673507163027848569024,
  673507163027848569024,
  673507162890443169984,
  673507162890443169984,
  823350366879766814784,
  823350366879766814784,
  823350366742361415744,
  823350366742361415744,
  823350366879766290624,
  823350366879766290624,
  823350366742360891584,
  823350366742360891584,
  821045086820506542144,
  821045086820506542144,
  821045086820506533954,
  821045086820506533954,
  821045086820506017984,
  821045086820506017984,
  821045086820506009794,
  821045086820506009794,
  673507163027849093184,
  673507163027849093184,
  673507163027849084994,
  673507163027849084994,
  673507163027848569024,
  673507163027848569024,
  673507163027848560834,
  673507163027848560834,
  823350366879766814784,
  823350366879766814784,
  823350366879766806594,
  823350366879766806594,
  823350366879766290624,
  823350366879766290624,
  823350366879766282434,
  823350366879766282434,
  821045086820506542144,
  821045086820506542144,
  821045069228321546304,
  821045069228321546304,
  821045086820506542144,
  821045086820506542144,
  821045086683101143104,
  821045086683101143104,
  821045069228321546304,
  821045069228321546304,
  821045069090916147264,
  821045069090916147264,
  673507163027849093184,
  673507163027849093184,
  673507162890443694144,
  673507162890443694144,
  673507145435664097344,
  673507145435664097344,
  673507145298258698304,
  673507145298258698304,
  823350366879766814784,
  823350366879766814784,
  823350366742361415744,
  823350366742361415744,
  823350349287581818944,
  823350349287581818944,
  823350349150176419904,
  823350349150176419904,
  821045086820506542144,
  821045086820506542144,
  821045086820506533954,
  821045086820506533954,
  821045069228321546304,
  821045069228321546304,
  821045069228321538114,
  821045069228321538114,
  673507163027849093184,
  673507163027849093184,
  673507163027849084994,
  673507163027849084994,
  673507145435664097344,
  673507145435664097344,
  673507145435664089154,
  673507145435664089154,
  823350366879766814784,
  823350366879766814784,
  823350366879766806594,
  823350366879766806594,
  823350349287581818944,
  823350349287581818944,
  823350349287581810754,
  823350349287581810754,
  11531498049961205824,
  11531498049961205824,
  11531498049961197634,
  11531498049961197634,
  11531498047814246464,
  11531498047814246464,
  11531498047814238274,
  11531498047814238274,
  11531498049961205824,
  11531498049961205824,
  11531498049961197634,
  11531498049961197634,
  11531498049961205824,
  11531498049961205824,
  11531498049894096964,
  11531498049894096964,
  11531498047814246464,
  11531498047814246464,
  11531498047747137604,
  11531498047747137604,
  11531498049961205824,
  11531498049961205824,
  11531498049894096964,
  11531498049894096964,
  11531498049961205824,
  11531498049961205824,
  11531498049927659584,
  11531498049927659584,
  11531498047814246464,
  11531498047814246464,
  11531498047780700224,
  11531498047780700224,
  11531498049961205824,
  11531498049961205824,
  11531498049927659584,
  11531498049927659584,
  11531498049961205824,
  11531498049961205824,
  11531497637644345414,
  11531497637644345414,
  11531498047814246464,
  11531498047814246464,
  11531497635497386054,
  11531497635497386054,
  11531498049961205824,
  11531498049961205824,
  11531497637644345414,
  11531497637644345414,
  11531498049961205824,
  11531498049961205824,
  11531497775083315264,
  11531497775083315264,
  11531498047814246464,
  11531498047814246464,
  11531497772936355904,
  11531497772936355904,
  11531498049961205824,
  11531498049961205824,
  11531497775083315264,
  11531497775083315264,
  11531498049961205824,
  11531498049961205824,
  11531497912555806784,
  11531497912555806784]
def ccdq_t4_aaaaaaaa_flip_cert_6 : List Nat := [11531498047814246464,
  11531498047814246464,
  11531497910408847424,
  11531497910408847424,
  11531498049961205824,
  11531498049961205824,
  11531497912555806784,
  11531497912555806784,
  164412590478073920,
  164412590478073920,
  164412590478065730,
  164412590478065730,
  164412588331114560,
  164412588331114560,
  164412588331106370,
  164412588331106370,
  164412590478073920,
  164412590478073920,
  164412453072674880,
  164412453072674880,
  164412588331114560,
  164412588331114560,
  164412450925715520,
  164412450925715520,
  164412590478073920,
  164412590478073920,
  164412590478065730,
  164412590478065730,
  164412590477549760,
  164412590477549760,
  164412590477541570,
  164412590477541570,
  164412590478073920,
  164412590478073920,
  164412453072674880,
  164412453072674880,
  164412590477549760,
  164412590477549760,
  164412453072150720,
  164412453072150720,
  164412590478073920,
  164412590478073920,
  164412590478065730,
  164412590478065730,
  164412588331114560,
  164412588331114560,
  164412588331106370,
  164412588331106370,
  164412590478073920,
  164412590478073920,
  164412590478065730,
  164412590478065730,
  164412590477549760,
  164412590477549760,
  164412590477541570,
  164412590477541570,
  164412590478073920,
  164412590478073920,
  164412590410965060,
  164412590410965060,
  164412588331114560,
  164412588331114560,
  164412588264005700,
  164412588264005700,
  164412590478073920,
  164412590478073920,
  164412590478065730,
  164412590478065730,
  164412588331114560,
  164412588331114560,
  164412588331106370,
  164412588331106370,
  164412590478073920,
  164412590478073920,
  164412590410965060,
  164412590410965060,
  164412590477549760,
  164412590477549760,
  164412590410440900,
  164412590410440900,
  164412590478073920,
  164412590478073920,
  164412590478065730,
  164412590478065730,
  164412590477549760,
  164412590477549760,
  164412590477541570,
  164412590477541570,
  164412590478073920,
  164412590478073920,
  164412590444527680,
  164412590444527680,
  164412588331114560,
  164412588331114560,
  164412588297568320,
  164412588297568320,
  164412590478073920,
  164412590478073920,
  164412590444527680,
  164412590444527680,
  164412590477549760,
  164412590477549760,
  164412590444003520,
  164412590444003520,
  164412590478073920,
  164412590478073920,
  164412590478065730,
  164412590478065730,
  164412586183106880,
  164412586183106880,
  164412586183098690,
  164412586183098690,
  164412590478073920,
  164412590478073920,
  164412453072674880,
  164412453072674880,
  164412586183106880,
  164412586183106880,
  164412448777707840,
  164412448777707840,
  164412590478073920,
  164412590478073920,
  164412590478065730,
  164412590478065730,
  164412586183106880,
  164412586183106880,
  164412586183098690,
  164412586183098690,
  164412590478073920,
  164412590478073920,
  164412590410965060,
  164412590410965060,
  164412586183106880,
  164412586183106880,
  164412586115998020,
  164412586115998020,
  164412590478073920,
  164412590478073920,
  164412590478065730,
  164412590478065730,
  164412586183106880,
  164412586183106880,
  164412586183098690,
  164412586183098690,
  164412590478073920,
  164412590478073920,
  164412590444527680,
  164412590444527680,
  164412586183106880,
  164412586183106880,
  164412586149560640,
  164412586149560640,
  164412590478073920,
  164412590478073920,
  164412590478065730,
  164412590478065730,
  164412590477549760,
  164412590477549760,
  164412590477541570,
  164412590477541570,
  164412590478073920,
  164412590478073920,
  164412453072674880,
  164412453072674880,
  164412590477549760,
  164412590477549760,
  164412453072150720,
  164412453072150720,
  164412590478073920,
  164412590478073920,
  164412590478065730,
  164412590478065730,
  164403796532535360,
  164403796532535360,
  164403796532527170,
  164403796532527170,
  164412590478073920,
  164412590478073920,
  164412453072674880,
  164412453072674880,
  164403796532535360,
  164403796532535360,
  164403659127136320,
  164403659127136320,
  164412590478073920,
  164412590478073920,
  164412590478065730,
  164412590478065730,
  164412590477549760,
  164412590477549760,
  164412590477541570,
  164412590477541570,
  164412590478073920,
  164412590478073920,
  164412590478065730,
  164412590478065730,
  164403796532535360,
  164403796532535360,
  164403796532527170,
  164403796532527170,
  164412590478073920,
  164412590478073920,
  164412590410965060,
  164412590410965060,
  164412590477549760,
  164412590477549760,
  164412590410440900,
  164412590410440900,
  164412590478073920,
  164412590478073920,
  164412590478065730,
  164412590478065730,
  164412590477549760,
  164412590477549760,
  164412590477541570,
  164412590477541570,
  164412590478073920,
  164412590478073920,
  164412590410965060,
  164412590410965060,
  164403796532535360,
  164403796532535360,
  164403796465426500,
  164403796465426500,
  164412590478073920,
  164412590478073920,
  164412590478065730,
  164412590478065730,
  164403796532535360,
  164403796532535360,
  164403796532527170,
  164403796532527170,
  164412590478073920,
  164412590478073920,
  164412590444527680,
  164412590444527680,
  164412590477549760,
  164412590477549760,
  164412590444003520,
  164412590444003520,
  164412590478073920,
  164412590478073920,
  164412590444527680,
  164412590444527680,
  164403796532535360,
  164403796532535360,
  164403796498989120,
  164403796498989120,
  164412590478073920,
  164412590478073920,
  164412590478065730,
  164412590478065730,
  164412590477549760,
  164412590477549760,
  164412590477541570,
  164412590477541570,
  164412590478073920,
  164412590478073920,
  164412453072674880,
  164412453072674880,
  164412590477549760,
  164412590477549760,
  164412453072150720,
  164412453072150720,
  164412590478073920,
  164412590478073920,
  164412590478065730,
  164412590478065730,
  164412590477549760,
  164412590477549760,
  164412590477541570,
  164412590477541570,
  164412590478073920,
  164412590478073920,
  164412590410965060,
  164412590410965060,
  164412590477549760,
  164412590477549760,
  164412590410440900,
  164412590410440900,
  164412590478073920,
  164412590478073920,
  164412590478065730,
  164412590478065730,
  164412590477549760,
  164412590477549760,
  164412590477541570,
  164412590477541570,
  164412590478073920,
  164412590478073920,
  164412590444527680,
  164412590444527680,
  164412590477549760,
  164412590477549760,
  164412590444003520,
  164412590444003520,
  811818900033884659776,
  811818900033884659776,
  811818900033851113536,
  811818900033851113536,
  811818900031737700416,
  811818900031737700416,
  811818900031704154176,
  811818900031704154176,
  811818900033884659776,
  811818900033884659776,
  811818899896479260736,
  811818899896479260736,
  811818900031737700416,
  811818900031737700416,
  811818899894332301376,
  811818899894332301376,
  811818900033884659776,
  811818900033884659776,
  811818900033817550916,
  811818900033817550916,
  811818900031737700416,
  811818900031737700416,
  811818900031670591556,
  811818900031670591556,
  811818900033884659776,
  811818900033884659776,
  811818900033851113536,
  811818900033851113536,
  811818900033884135616,
  811818900033884135616,
  811818900033850589376,
  811818900033850589376,
  811818900033884659776,
  811818900033884659776,
  811818899896479260736,
  811818899896479260736,
  811818900033884135616,
  811818900033884135616,
  811818899896478736576,
  811818899896478736576,
  811818900033884659776,
  811818900033884659776,
  811818900033817550916,
  811818900033817550916,
  811818900033884135616,
  811818900033884135616,
  811818900033817026756,
  811818900033817026756,
  811818900033884659776,
  811818900033884659776,
  811818900033851113536,
  811818900033851113536,
  811818882441699663936,
  811818882441699663936,
  811818882441666117696,
  811818882441666117696,
  811818900033884659776,
  811818900033884659776,
  811818899896479260736,
  811818899896479260736,
  811818882441699663936,
  811818882441699663936,
  811818882304294264896,
  811818882304294264896,
  811818900033884659776,
  811818900033884659776,
  811818900033817550916,
  811818900033817550916,
  811818882441699663936,
  811818882441699663936,
  811818882441632555076,
  811818882441632555076,
  823350366879766814784,
  823350366879766814784,
  823350366879766806594,
  823350366879766806594,
  823350366877619855424,
  823350366877619855424,
  823350366877619847234,
  823350366877619847234,
  823350366879766814784,
  823350366879766814784,
  823350366879766806594,
  823350366879766806594,
  823350366879766814784,
  823350366879766814784,
  823350366879699705924,
  823350366879699705924,
  823350366877619855424,
  823350366877619855424,
  823350366877552746564,
  823350366877552746564,
  823350366879766814784,
  823350366879766814784,
  823350366879699705924,
  823350366879699705924,
  823350366879766814784,
  823350366879766814784,
  823350366879733268544,
  823350366879733268544,
  823350366877619855424,
  823350366877619855424,
  823350366877586309184,
  823350366877586309184]
def ccdq_t4_aaaaaaaa_flip_cert_7 : List Nat := [823350366879766814784,
  823350366879766814784,
  823350366879733268544,
  823350366879733268544,
  823350366879766814784,
  823350366879766814784,
  823350366467449954374,
  823350366467449954374,
  823350366877619855424,
  823350366877619855424,
  823350366465302995014,
  823350366465302995014,
  823350366879766814784,
  823350366879766814784,
  823350366467449954374,
  823350366467449954374,
  823350366879766814784,
  823350366879766814784,
  823350366604888924224,
  823350366604888924224,
  823350366877619855424,
  823350366877619855424,
  823350366602741964864,
  823350366602741964864,
  823350366879766814784,
  823350366879766814784,
  823350366604888924224,
  823350366604888924224,
  823350366879766814784,
  823350366879766814784,
  823350366742361415744,
  823350366742361415744,
  823350366877619855424,
  823350366877619855424,
  823350366740214456384,
  823350366740214456384,
  823350366879766814784,
  823350366879766814784,
  823350366742361415744,
  823350366742361415744,
  823350366879766814784,
  823350366879766814784,
  823350366879766806594,
  823350366879766806594,
  823350366877619855424,
  823350366877619855424,
  823350366877619847234,
  823350366877619847234,
  823350366879766814784,
  823350366879766814784,
  823350366879766806594,
  823350366879766806594,
  823350366877619855424,
  823350366877619855424,
  823350366877619847234,
  823350366877619847234,
  823350366879766814784,
  823350366879766814784,
  823350366742361415744,
  823350366742361415744,
  823350366877619855424,
  823350366877619855424,
  823350366740214456384,
  823350366740214456384,
  823350366879766814784,
  823350366879766814784,
  823350366742361415744,
  823350366742361415744,
  823350366877619855424,
  823350366877619855424,
  823350366740214456384,
  823350366740214456384,
  823350366879766814784,
  823350366879766814784,
  823350366879766806594,
  823350366879766806594,
  823350366879766290624,
  823350366879766290624,
  823350366879766282434,
  823350366879766282434,
  823350366879766814784,
  823350366879766814784,
  823350366879766806594,
  823350366879766806594,
  823350366879766290624,
  823350366879766290624,
  823350366879766282434,
  823350366879766282434,
  823350366879766814784,
  823350366879766814784,
  823350366742361415744,
  823350366742361415744,
  823350366879766290624,
  823350366879766290624,
  823350366742360891584,
  823350366742360891584,
  823350366879766814784,
  823350366879766814784,
  823350366742361415744,
  823350366742361415744,
  823350366879766290624,
  823350366879766290624,
  823350366742360891584,
  823350366742360891584,
  823350366879766814784,
  823350366879766814784,
  823350366879766806594,
  823350366879766806594,
  823350366877619855424,
  823350366877619855424,
  823350366877619847234,
  823350366877619847234,
  823350366879766814784,
  823350366879766814784,
  823350366879766806594,
  823350366879766806594,
  823350366877619855424,
  823350366877619855424,
  823350366877619847234,
  823350366877619847234,
  823350366879766814784,
  823350366879766814784,
  823350366879766806594,
  823350366879766806594,
  823350366879766290624,
  823350366879766290624,
  823350366879766282434,
  823350366879766282434,
  823350366879766814784,
  823350366879766814784,
  823350366879766806594,
  823350366879766806594,
  823350366879766290624,
  823350366879766290624,
  823350366879766282434,
  823350366879766282434,
  823350366879766814784,
  823350366879766814784,
  823350366879699705924,
  823350366879699705924,
  823350366877619855424,
  823350366877619855424,
  823350366877552746564,
  823350366877552746564,
  823350366879766814784,
  823350366879766814784,
  823350366879699705924,
  823350366879699705924,
  823350366877619855424,
  823350366877619855424,
  823350366877552746564,
  823350366877552746564,
  823350366879766814784,
  823350366879766814784,
  823350366879766806594,
  823350366879766806594,
  823350366877619855424,
  823350366877619855424,
  823350366877619847234,
  823350366877619847234,
  823350366879766814784,
  823350366879766814784,
  823350366879766806594,
  823350366879766806594,
  823350366877619855424,
  823350366877619855424,
  823350366877619847234,
  823350366877619847234,
  823350366879766814784,
  823350366879766814784,
  823350366879699705924,
  823350366879699705924,
  823350366879766290624,
  823350366879766290624,
  823350366879699181764,
  823350366879699181764,
  823350366879766814784,
  823350366879766814784,
  823350366879699705924,
  823350366879699705924,
  823350366879766290624,
  823350366879766290624,
  823350366879699181764,
  823350366879699181764,
  823350366879766814784,
  823350366879766814784,
  823350366879766806594,
  823350366879766806594,
  823350366879766290624,
  823350366879766290624,
  823350366879766282434,
  823350366879766282434,
  823350366879766814784,
  823350366879766814784,
  823350366879766806594,
  823350366879766806594,
  823350366879766290624,
  823350366879766290624,
  823350366879766282434,
  823350366879766282434,
  823350366879766814784,
  823350366879766814784,
  823350366879733268544,
  823350366879733268544,
  823350366877619855424,
  823350366877619855424,
  823350366877586309184,
  823350366877586309184,
  823350366879766814784,
  823350366879766814784,
  823350366879733268544,
  823350366879733268544,
  823350366877619855424,
  823350366877619855424,
  823350366877586309184,
  823350366877586309184,
  823350366879766814784,
  823350366879766814784,
  823350366879733268544,
  823350366879733268544,
  823350366879766290624,
  823350366879766290624,
  823350366879732744384,
  823350366879732744384,
  823350366879766814784,
  823350366879766814784,
  823350366879733268544,
  823350366879733268544,
  823350366879766290624,
  823350366879766290624,
  823350366879732744384,
  823350366879732744384,
  675812443087109365824,
  675812443087109365824,
  675812443087109357634,
  675812443087109357634,
  675812443084962406464,
  675812443084962406464,
  675812443084962398274,
  675812443084962398274,
  823350366879766814784,
  823350366879766814784,
  823350366879766806594,
  823350366879766806594,
  823350366877619855424,
  823350366877619855424,
  823350366877619847234,
  823350366877619847234,
  821045086820506542144,
  821045086820506542144,
  821045086820472995904,
  821045086820472995904,
  821045086818359582784,
  821045086818359582784,
  821045086818326036544,
  821045086818326036544,
  675812443087109365824,
  675812443087109365824,
  675812443087109357634,
  675812443087109357634,
  675812443087108841664,
  675812443087108841664,
  675812443087108833474,
  675812443087108833474,
  823350366879766814784,
  823350366879766814784,
  823350366879766806594,
  823350366879766806594,
  823350366879766290624,
  823350366879766290624,
  823350366879766282434,
  823350366879766282434,
  821045086820506542144,
  821045086820506542144,
  821045086820472995904,
  821045086820472995904,
  821045086820506017984,
  821045086820506017984,
  821045086820472471744,
  821045086820472471744,
  675812443087109365824,
  675812443087109365824,
  675812443087042256964,
  675812443087042256964,
  675812443084962406464,
  675812443084962406464,
  675812443084895297604,
  675812443084895297604,
  823350366879766814784,
  823350366879766814784,
  823350366879699705924,
  823350366879699705924,
  823350366877619855424,
  823350366877619855424,
  823350366877552746564,
  823350366877552746564,
  675812443087109365824,
  675812443087109365824,
  675812443087042256964,
  675812443087042256964,
  675812443087108841664,
  675812443087108841664,
  675812443087041732804,
  675812443087041732804,
  823350366879766814784,
  823350366879766814784,
  823350366879699705924,
  823350366879699705924,
  823350366879766290624,
  823350366879766290624,
  823350366879699181764,
  823350366879699181764,
  675812443087109365824,
  675812443087109365824,
  675812443087075819584,
  675812443087075819584,
  675812443084962406464,
  675812443084962406464,
  675812443084928860224,
  675812443084928860224,
  823350366879766814784,
  823350366879766814784,
  823350366879733268544,
  823350366879733268544,
  823350366877619855424,
  823350366877619855424,
  823350366877586309184,
  823350366877586309184,
  821045086820506542144,
  821045086820506542144,
  821045086683101143104,
  821045086683101143104,
  821045086818359582784,
  821045086818359582784,
  821045086680954183744,
  821045086680954183744,
  675812443087109365824,
  675812443087109365824,
  675812443087075819584,
  675812443087075819584,
  675812443087108841664,
  675812443087108841664,
  675812443087075295424,
  675812443087075295424,
  823350366879766814784,
  823350366879766814784,
  823350366879733268544,
  823350366879733268544,
  823350366879766290624,
  823350366879766290624,
  823350366879732744384,
  823350366879732744384,
  821045086820506542144,
  821045086820506542144,
  821045086683101143104,
  821045086683101143104,
  821045086820506017984,
  821045086820506017984,
  821045086683100618944,
  821045086683100618944,
  675812443087109365824,
  675812443087109365824,
  675812442674792505414,
  675812442674792505414,
  675812443084962406464,
  675812443084962406464,
  675812442672645546054,
  675812442672645546054,
  823350366879766814784,
  823350366879766814784,
  823350366467449954374,
  823350366467449954374,
  823350366877619855424,
  823350366877619855424,
  823350366465302995014,
  823350366465302995014,
  821045086820506542144,
  821045086820506542144,
  821045086820439433284,
  821045086820439433284,
  821045086818359582784,
  821045086818359582784,
  821045086818292473924,
  821045086818292473924,
  675812443087109365824,
  675812443087109365824,
  675812442674792505414,
  675812442674792505414,
  675812443087108841664,
  675812443087108841664,
  675812442674791981254,
  675812442674791981254,
  823350366879766814784,
  823350366879766814784,
  823350366467449954374,
  823350366467449954374,
  823350366879766290624,
  823350366879766290624,
  823350366467449430214,
  823350366467449430214]
def ccdq_t4_aaaaaaaa_flip_cert_8 : List Nat := [821045086820506542144,
  821045086820506542144,
  821045086820439433284,
  821045086820439433284,
  821045086820506017984,
  821045086820506017984,
  821045086820438909124,
  821045086820438909124,
  675812443087109365824,
  675812443087109365824,
  675812442812231475264,
  675812442812231475264,
  675812443084962406464,
  675812443084962406464,
  675812442810084515904,
  675812442810084515904,
  823350366879766814784,
  823350366879766814784,
  823350366604888924224,
  823350366604888924224,
  823350366877619855424,
  823350366877619855424,
  823350366602741964864,
  823350366602741964864,
  675812443087109365824,
  675812443087109365824,
  675812442812231475264,
  675812442812231475264,
  675812443087108841664,
  675812443087108841664,
  675812442812230951104,
  675812442812230951104,
  823350366879766814784,
  823350366879766814784,
  823350366604888924224,
  823350366604888924224,
  823350366879766290624,
  823350366879766290624,
  823350366604888400064,
  823350366604888400064,
  675812443087109365824,
  675812443087109365824,
  675812442949703966784,
  675812442949703966784,
  675812443084962406464,
  675812443084962406464,
  675812442947557007424,
  675812442947557007424,
  823350366879766814784,
  823350366879766814784,
  823350366742361415744,
  823350366742361415744,
  823350366877619855424,
  823350366877619855424,
  823350366740214456384,
  823350366740214456384,
  675812443087109365824,
  675812443087109365824,
  675812442949703966784,
  675812442949703966784,
  675812443087108841664,
  675812443087108841664,
  675812442949703442624,
  675812442949703442624,
  823350366879766814784,
  823350366879766814784,
  823350366742361415744,
  823350366742361415744,
  823350366879766290624,
  823350366879766290624,
  823350366742360891584,
  823350366742360891584,
  823350366879766814784,
  823350366879766814784,
  823350366879766806594,
  823350366879766806594,
  823350366879766814784,
  823350366879766814784,
  823350366879766806594,
  823350366879766806594,
  823350366879766814784,
  823350366879766814784,
  823350366742361415744,
  823350366742361415744,
  823350366879766814784,
  823350366879766814784,
  823350366742361415744,
  823350366742361415744,
  823350366879766814784,
  823350366879766814784,
  823350366879766806594,
  823350366879766806594,
  823350366879766814784,
  823350366879766814784,
  823350366879766806594,
  823350366879766806594,
  823350366879766814784,
  823350366879766814784,
  823350366879699705924,
  823350366879699705924,
  823350366879766814784,
  823350366879766814784,
  823350366879699705924,
  823350366879699705924,
  823350366879766814784,
  823350366879766814784,
  823350366879766806594,
  823350366879766806594,
  823350366879766814784,
  823350366879766814784,
  823350366879766806594,
  823350366879766806594,
  823350366879766814784,
  823350366879766814784,
  823350366879733268544,
  823350366879733268544,
  823350366879766814784,
  823350366879766814784,
  823350366879733268544,
  823350366879733268544,
  675812443087109365824,
  675812443087109365824,
  675812443087109357634,
  675812443087109357634,
  823350366879766814784,
  823350366879766814784,
  823350366879766806594,
  823350366879766806594,
  821045086820506542144,
  821045086820506542144,
  821045086820472995904,
  821045086820472995904,
  675812443087109365824,
  675812443087109365824,
  675812443087042256964,
  675812443087042256964,
  823350366879766814784,
  823350366879766814784,
  823350366879699705924,
  823350366879699705924,
  675812443087109365824,
  675812443087109365824,
  675812443087075819584,
  675812443087075819584,
  823350366879766814784,
  823350366879766814784,
  823350366879733268544,
  823350366879733268544,
  821045086820506542144,
  821045086820506542144,
  821045086683101143104,
  821045086683101143104,
  675812443087109365824,
  675812443087109365824,
  675812442674792505414,
  675812442674792505414,
  823350366879766814784,
  823350366879766814784,
  823350366467449954374,
  823350366467449954374,
  821045086820506542144,
  821045086820506542144,
  821045086820439433284,
  821045086820439433284,
  675812443087109365824,
  675812443087109365824,
  675812442812231475264,
  675812442812231475264,
  823350366879766814784,
  823350366879766814784,
  823350366604888924224,
  823350366604888924224,
  675812443087109365824,
  675812443087109365824,
  675812442949703966784,
  675812442949703966784,
  823350366879766814784,
  823350366879766814784,
  823350366742361415744,
  823350366742361415744,
  823350366879766814784,
  823350366879766814784,
  823350366879766806594,
  823350366879766806594,
  823350366879766814784,
  823350366879766814784,
  823350366879766806594,
  823350366879766806594,
  823350366879766814784,
  823350366879766814784,
  823350366742361415744,
  823350366742361415744,
  823350366879766814784,
  823350366879766814784,
  823350366742361415744,
  823350366742361415744,
  823350366879766814784,
  823350366879766814784,
  823350366879766806594,
  823350366879766806594,
  823350366879766814784,
  823350366879766814784,
  823350366879766806594,
  823350366879766806594,
  823350366879766814784,
  823350366879766814784,
  823350366879699705924,
  823350366879699705924,
  823350366879766814784,
  823350366879766814784,
  823350366879699705924,
  823350366879699705924,
  823350366879766814784,
  823350366879766814784,
  823350366879766806594,
  823350366879766806594,
  823350366879766814784,
  823350366879766814784,
  823350366879766806594,
  823350366879766806594,
  823350366879766814784,
  823350366879766814784,
  823350366879733268544,
  823350366879733268544,
  823350366879766814784,
  823350366879766814784,
  823350366879733268544,
  823350366879733268544,
  675812443087109365824,
  675812443087109365824,
  675812443087109357634,
  675812443087109357634,
  823350366879766814784,
  823350366879766814784,
  823350366879766806594,
  823350366879766806594,
  821045086820506542144,
  821045086820506542144,
  821045086820472995904,
  821045086820472995904,
  675812443087109365824,
  675812443087109365824,
  675812443087042256964,
  675812443087042256964,
  823350366879766814784,
  823350366879766814784,
  823350366879699705924,
  823350366879699705924,
  675812443087109365824,
  675812443087109365824,
  675812443087075819584,
  675812443087075819584,
  823350366879766814784,
  823350366879766814784,
  823350366879733268544,
  823350366879733268544,
  821045086820506542144,
  821045086820506542144,
  821045086683101143104,
  821045086683101143104,
  675812443087109365824,
  675812443087109365824,
  675812442674792505414,
  675812442674792505414,
  823350366879766814784,
  823350366879766814784,
  823350366467449954374,
  823350366467449954374,
  821045086820506542144,
  821045086820506542144,
  821045086820439433284,
  821045086820439433284,
  675812443087109365824,
  675812443087109365824,
  675812442812231475264,
  675812442812231475264,
  823350366879766814784,
  823350366879766814784,
  823350366604888924224,
  823350366604888924224,
  675812443087109365824,
  675812443087109365824,
  675812442949703966784,
  675812442949703966784,
  823350366879766814784,
  823350366879766814784,
  823350366742361415744,
  823350366742361415744]

/-- Check ccdq_t4_aaaaaaaa_flip. C87 -/
theorem ccdq_t4_aaaaaaaa_flip : isZero kinds [aᵥ, bᵥ, cᵥ, dᵥ, iₒ, jₒ, kₒ, lₒ] 100000000000000
    (Prog.flip (ccdq_t4_aaaaaaaa) ++ (Prog.scale (-1) (Prog.outs [0, 1, 2, 3, 4, 5, 6, 7] (ccdq_t4_bbbbbbbb))))
    (ccdq_t4_aaaaaaaa_flip_cert_0 ++ (ccdq_t4_aaaaaaaa_flip_cert_1 ++ (ccdq_t4_aaaaaaaa_flip_cert_2 ++ (ccdq_t4_aaaaaaaa_flip_cert_3 ++ (ccdq_t4_aaaaaaaa_flip_cert_4 ++ (ccdq_t4_aaaaaaaa_flip_cert_5 ++ (ccdq_t4_aaaaaaaa_flip_cert_6 ++ (ccdq_t4_aaaaaaaa_flip_cert_7 ++ (ccdq_t4_aaaaaaaa_flip_cert_8))))))))) = true := by decide +kernel

end Verif.Cert
