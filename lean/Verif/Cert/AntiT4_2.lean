import Verif.Ein.Ops2
import Verif.Gen.SiCcdqT4_2

/-! Written by `/verif/tools/gen.py`. Checks of einsum programs. -/

set_option maxRecDepth 100000

namespace Verif.Cert

open Verif.Ein Verif.Ein.N


open Verif.Gen

def ccdq_t4_aabbaabb_anti0_cert_0 : List Nat := [2283003892736064,
  2283003892736064,
  2282866487337024,
  2282866487337024,
  2283003892736064,
  2283003892736064,
  2283003892727874,
  2283003892727874,
  162160790664388672,
  162160790664388672,
  162160790663864512,
  162160790663864512,
  162160790664388672,
  162160790664388672,
  162151996718850112,
  162151996718850112,
  9226217990700933184,
  9226217990700933184,
  9226217990700933184,
  9226217990700933184,
  11531498049961205824,
  11531498049961205824,
  9226217990700933184,
  9226217990700933184,
  9226217853295534144,
  9226217853295534144,
  11531498049961205824,
  11531498049961205824,
  11531497912555806784,
  11531497912555806784,
  9226217990700933184,
  9226217990700933184,
  11531498049961205824,
  11531498049961205824,
  9226217990700933184,
  9226217990700933184,
  164412590478073920,
  164412590478073920,
  164412453072674880,
  164412453072674880,
  164412590477549760,
  164412590477549760,
  164412453072150720,
  164412453072150720,
  164412590478073920,
  164412590478073920,
  164412590478065730,
  164412590478065730,
  164412590477549760,
  164412590477549760,
  164412590477541570,
  164412590477541570,
  164412590478073920,
  164412590478073920,
  164412590478065730,
  164412590478065730,
  164412590477549760,
  164412590477549760,
  164412590477541570,
  164412590477541570,
  164412590478073920,
  164412590478073920,
  164412453072674880,
  164412453072674880,
  164403796532535360,
  164403796532535360,
  164403659127136320,
  164403659127136320,
  164412590478073920,
  164412590478073920,
  164412453072674880,
  164412453072674880,
  164403796532535360,
  164403796532535360,
  164403659127136320,
  164403659127136320,
  164412590478073920,
  164412590478073920,
  164412590478065730,
  164412590478065730,
  164403796532535360,
  164403796532535360,
  164403796532527170,
  164403796532527170,
  811818900033884659776,
  811818900033884659776,
  811818900033884659776,
  811818900033884659776,
  664280976241227210816,
  664280976241227210816,
  811818900033884659776,
  811818900033884659776,
  811818900033884135616,
  811818900033884135616,
  664280976241227210816,
  664280976241227210816,
  664280976241226686656,
  664280976241226686656,
  811818900033884659776,
  811818900033884659776,
  664280976241227210816,
  664280976241227210816,
  811818900033884659776,
  811818900033884659776,
  823350366879766814784,
  823350366879766814784,
  823350366742361415744,
  823350366742361415744,
  675812443087109365824,
  675812443087109365824,
  675812442949703966784,
  675812442949703966784,
  823350366879766814784,
  823350366879766814784,
  823350366742361415744,
  823350366742361415744,
  823350366879766814784,
  823350366879766814784,
  823350366879766806594,
  823350366879766806594,
  821045086820506542144,
  821045086820506542144,
  821045086820506533954,
  821045086820506533954,
  673507163027849093184,
  673507163027849093184,
  673507163027849084994,
  673507163027849084994,
  821045086820506542144,
  821045086820506542144,
  821045086820506542144,
  821045086820506542144,
  823350366879766814784,
  823350366879766814784,
  673507163027849093184,
  673507163027849093184,
  675812443087109365824,
  675812443087109365824,
  821045086820506542144,
  821045086820506542144,
  821045086683101143104,
  821045086683101143104,
  823350366879766814784,
  823350366879766814784,
  823350366742361415744,
  823350366742361415744,
  673507163027849093184,
  673507163027849093184,
  673507162890443694144,
  673507162890443694144,
  675812443087109365824,
  675812443087109365824,
  675812442949703966784,
  675812442949703966784,
  821045086820506542144,
  821045086820506542144,
  823350366879766814784,
  823350366879766814784,
  673507163027849093184,
  673507163027849093184,
  675812443087109365824,
  675812443087109365824,
  821045086820506542144,
  821045086820506542144,
  821045086820506542144,
  821045086820506542144,
  821045086820506017984,
  821045086820506017984,
  673507163027849093184,
  673507163027849093184,
  673507163027848569024,
  673507163027848569024,
  675812443087109365824,
  675812443087109365824,
  675812443087108841664,
  675812443087108841664,
  675812443087109365824,
  675812443087109365824,
  675812442949703966784,
  675812442949703966784,
  675812443087108841664,
  675812443087108841664,
  675812442949703442624,
  675812442949703442624,
  823350366879766814784,
  823350366879766814784,
  823350366879766806594,
  823350366879766806594,
  823350366879766290624,
  823350366879766290624,
  823350366879766282434,
  823350366879766282434,
  823350366879766814784,
  823350366879766814784,
  823350366879766806594,
  823350366879766806594,
  823350366879766290624,
  823350366879766290624,
  823350366879766282434,
  823350366879766282434,
  673507163027849093184,
  673507163027849093184,
  673507163027849084994,
  673507163027849084994,
  673507163027848569024,
  673507163027848569024,
  673507163027848560834,
  673507163027848560834,
  823350366879766814784,
  823350366879766814784,
  823350366879766806594,
  823350366879766806594,
  823350366879766290624,
  823350366879766290624,
  823350366879766282434,
  823350366879766282434,
  673507163027849093184,
  673507163027849093184,
  673507163027848569024,
  673507163027848569024,
  675812443087109365824,
  675812443087109365824,
  675812443087108841664,
  675812443087108841664,
  821045086820506542144,
  821045086820506542144,
  821045086820506017984,
  821045086820506017984,
  673507163027849093184,
  673507163027849093184,
  673507162890443694144,
  673507162890443694144,
  673507163027848569024,
  673507163027848569024,
  673507162890443169984,
  673507162890443169984,
  675812443087109365824,
  675812443087109365824,
  675812442949703966784,
  675812442949703966784,
  675812443087108841664,
  675812443087108841664,
  675812442949703442624,
  675812442949703442624,
  821045086820506542144,
  821045086820506542144,
  821045086683101143104,
  821045086683101143104,
  821045086820506017984,
  821045086820506017984,
  821045086683100618944,
  821045086683100618944,
  673507163027849093184,
  673507163027849093184,
  673507163027848569024,
  673507163027848569024,
  675812443087109365824,
  675812443087109365824,
  675812443087108841664,
  675812443087108841664,
  821045086820506542144,
  821045086820506542144,
  821045086820506017984,
  821045086820506017984,
  821045086820506542144,
  821045086820506542144,
  821045086820506017984,
  821045086820506017984,
  821045086820506542144,
  821045086820506542144,
  821045086820506017984,
  821045086820506017984,
  823350366879766814784,
  823350366879766814784,
  823350366879766290624,
  823350366879766290624,
  821045086820506542144,
  821045086820506542144,
  821045078026561003584,
  821045078026561003584,
  823350366879766814784,
  823350366879766814784,
  823350358085821276224,
  823350358085821276224,
  821045086820506542144,
  821045086820506542144,
  821045078026561003584,
  821045078026561003584,
  823350366879766814784,
  823350366879766814784,
  823350366742361415744,
  823350366742361415744,
  823350358085821276224,
  823350358085821276224,
  823350357948415877184,
  823350357948415877184,
  823350366879766814784,
  823350366879766814784,
  823350366742361415744,
  823350366742361415744,
  823350358085821276224,
  823350358085821276224,
  823350357948415877184,
  823350357948415877184,
  673507163027849093184,
  673507163027849093184,
  673507162890443694144,
  673507162890443694144,
  673507154233903554624,
  673507154233903554624,
  673507154096498155584,
  673507154096498155584,
  823350366879766814784,
  823350366879766814784,
  823350366742361415744,
  823350366742361415744,
  823350358085821276224,
  823350358085821276224,
  823350357948415877184,
  823350357948415877184,
  821045086820506542144,
  821045086820506542144,
  821045086820506533954,
  821045086820506533954,
  821045078026561003584,
  821045078026561003584,
  821045078026560995394,
  821045078026560995394,
  673507163027849093184,
  673507163027849093184,
  673507154233903554624,
  673507154233903554624,
  675812443087109365824,
  675812443087109365824,
  675812434293163827264,
  675812434293163827264,
  821045086820506542144,
  821045086820506542144,
  821045078026561003584,
  821045078026561003584,
  821045086820506542144,
  821045086820506542144,
  821045078026561003584,
  821045078026561003584,
  821045086820506542144,
  821045086820506542144,
  821045078026561003584,
  821045078026561003584,
  823350366879766814784,
  823350366879766814784,
  823350358085821276224,
  823350358085821276224,
  821045086820506542144,
  821045086820506542144,
  821045086683101143104,
  821045086683101143104,
  821045078026561003584,
  821045078026561003584,
  821045077889155604544,
  821045077889155604544,
  821045086820506542144,
  821045086820506542144,
  821045086683101143104,
  821045086683101143104,
  821045078026561003584,
  821045078026561003584,
  821045077889155604544,
  821045077889155604544,
  823350366879766814784,
  823350366879766814784,
  823350366742361415744,
  823350366742361415744,
  823350358085821276224,
  823350358085821276224,
  823350357948415877184,
  823350357948415877184,
  821045086820506542144,
  821045086820506542144,
  821045078026561003584,
  821045078026561003584,
  821045086820506542144,
  821045086820506542144,
  821045078026561003584,
  821045078026561003584,
  823350366879766814784,
  823350366879766814784,
  823350358085821276224,
  823350358085821276224,
  821045086820506542144,
  821045086820506542144,
  821045086820506542144,
  821045086820506542144,
  673507163027849093184,
  673507163027849093184,
  823350366879766814784,
  823350366879766814784,
  675812443087109365824,
  675812443087109365824,
  823350366879766814784,
  823350366879766814784]
def ccdq_t4_aabbaabb_anti0_cert_1 : List Nat := [823350366742361415744,
  823350366742361415744,
  823350366879766814784,
  823350366879766814784,
  823350366742361415744,
  823350366742361415744,
  675812443087109365824,
  675812443087109365824,
  675812442949703966784,
  675812442949703966784,
  823350366879766814784,
  823350366879766814784,
  823350366879766806594,
  823350366879766806594,
  823350366879766814784,
  823350366879766814784,
  823350366879766806594,
  823350366879766806594,
  675812443087109365824,
  675812443087109365824,
  675812443087109357634,
  675812443087109357634,
  821045086820506542144,
  821045086820506542144,
  821045086820506533954,
  821045086820506533954,
  673507163027849093184,
  673507163027849093184,
  673507163027849084994,
  673507163027849084994,
  823350366879766814784,
  823350366879766814784,
  823350366879766806594,
  823350366879766806594,
  821045086820506542144,
  821045086820506542144,
  821045086820506017984,
  821045086820506017984,
  673507163027849093184,
  673507163027849093184,
  673507163027848569024,
  673507163027848569024,
  823350366879766814784,
  823350366879766814784,
  823350366879766290624,
  823350366879766290624,
  675812443087109365824,
  675812443087109365824,
  675812443087108841664,
  675812443087108841664,
  823350366879766814784,
  823350366879766814784,
  823350366742361415744,
  823350366742361415744,
  823350366879766290624,
  823350366879766290624,
  823350366742360891584,
  823350366742360891584,
  823350366879766814784,
  823350366879766814784,
  823350366742361415744,
  823350366742361415744,
  823350366879766290624,
  823350366879766290624,
  823350366742360891584,
  823350366742360891584,
  675812443087109365824,
  675812443087109365824,
  675812442949703966784,
  675812442949703966784,
  675812443087108841664,
  675812443087108841664,
  675812442949703442624,
  675812442949703442624,
  821045086820506542144,
  821045086820506542144,
  821045086820506533954,
  821045086820506533954,
  821045086820506017984,
  821045086820506017984,
  821045086820506009794,
  821045086820506009794,
  673507163027849093184,
  673507163027849093184,
  673507163027849084994,
  673507163027849084994,
  673507163027848569024,
  673507163027848569024,
  673507163027848560834,
  673507163027848560834,
  823350366879766814784,
  823350366879766814784,
  823350366879766806594,
  823350366879766806594,
  823350366879766290624,
  823350366879766290624,
  823350366879766282434,
  823350366879766282434,
  821045086820506542144,
  821045086820506542144,
  673507163027849093184,
  673507163027849093184,
  823350366879766814784,
  823350366879766814784,
  675812443087109365824,
  675812443087109365824,
  821045086820506542144,
  821045086820506542144,
  823350366879766814784,
  823350366879766814784,
  823350366742361415744,
  823350366742361415744,
  823350366879766814784,
  823350366879766814784,
  823350366742361415744,
  823350366742361415744,
  675812443087109365824,
  675812443087109365824,
  675812442949703966784,
  675812442949703966784,
  821045086820506542144,
  821045086820506542144,
  821045086683101143104,
  821045086683101143104,
  673507163027849093184,
  673507163027849093184,
  673507162890443694144,
  673507162890443694144,
  823350366879766814784,
  823350366879766814784,
  823350366742361415744,
  823350366742361415744,
  821045086820506542144,
  821045086820506542144,
  821045086820506533954,
  821045086820506533954,
  673507163027849093184,
  673507163027849093184,
  673507163027849084994,
  673507163027849084994,
  823350366879766814784,
  823350366879766814784,
  823350366879766806594,
  823350366879766806594,
  11531498049961205824,
  11531498049961205824,
  11531498049961197634,
  11531498049961197634,
  11531498049961205824,
  11531498049961205824,
  11531498049961197634,
  11531498049961197634,
  11531498049961205824,
  11531498049961205824,
  11531498049961205824,
  11531498049961205824,
  9226217990700933184,
  9226217990700933184,
  11531498049961205824,
  11531498049961205824,
  9226217990700933184,
  9226217990700933184,
  11531498049961205824,
  11531498049961205824,
  11531498049961205824,
  11531498049961205824,
  9226217990700933184,
  9226217990700933184,
  11531498049961205824,
  11531498049961205824,
  9226217990700933184,
  9226217990700933184,
  11531498049961205824,
  11531498049961205824,
  11531498049961205824,
  11531498049961205824,
  9226217990700933184,
  9226217990700933184,
  11531498049961205824,
  11531498049961205824,
  9226217990700933184,
  9226217990700933184,
  11531498049961205824,
  11531498049961205824,
  11531498049961205824,
  11531498049961205824,
  9226217990700933184,
  9226217990700933184,
  11531498049961205824,
  11531498049961205824,
  9226217990700933184,
  9226217990700933184,
  11531498049961205824,
  11531498049961205824,
  11531497912555806784,
  11531497912555806784,
  11531498049961205824,
  11531498049961205824,
  11531497912555806784,
  11531497912555806784,
  164412590478073920,
  164412590478073920,
  164412590478065730,
  164412590478065730,
  164412590478073920,
  164412590478073920,
  164412453072674880,
  164412453072674880,
  164412590478073920,
  164412590478073920,
  164412590478065730,
  164412590478065730,
  164412590477549760,
  164412590477549760,
  164412590477541570,
  164412590477541570,
  164412590478073920,
  164412590478073920,
  164412590478065730,
  164412590478065730,
  164412590478073920,
  164412590478073920,
  164412590478065730,
  164412590478065730,
  164412590477549760,
  164412590477549760,
  164412590477541570,
  164412590477541570,
  164412590478073920,
  164412590478073920,
  164412590478073920,
  164412590478073920,
  164412590478073920,
  164412590478073920,
  164412590478073920,
  164412590478073920,
  164412590478065730,
  164412590478065730,
  164412590478073920,
  164412590478073920,
  164412590478065730,
  164412590478065730,
  164412590478073920,
  164412590478073920,
  164412590477549760,
  164412590477549760,
  164412590478073920,
  164412590478073920,
  164412590477549760,
  164412590477549760,
  164412590478073920,
  164412590478073920,
  164412590478065730,
  164412590478065730,
  164412590477549760,
  164412590477549760,
  164412590477541570,
  164412590477541570,
  164412590478073920,
  164412590478073920,
  164412590478073920,
  164412590478073920,
  164412590478073920,
  164412590478073920,
  164412590478073920,
  164412590478073920,
  164412590477549760,
  164412590477549760,
  164412590478073920,
  164412590478073920,
  164412590477549760,
  164412590477549760,
  164412590478073920,
  164412590478073920,
  164412590478065730,
  164412590478065730,
  164412590478073920,
  164412590478073920,
  164412453072674880,
  164412453072674880,
  164412590478073920,
  164412590478073920,
  164412590478065730,
  164412590478065730,
  164412590478073920,
  164412590478073920,
  164412590478073920,
  164412590478073920,
  164412590478073920,
  164412590478073920,
  164412590478073920,
  164412590478073920,
  164412590478065730,
  164412590478065730,
  164412590478073920,
  164412590478073920,
  164412590478065730,
  164412590478065730,
  164412590478073920,
  164412590478073920,
  164412590478073920,
  164412590478073920,
  164412590478073920,
  164412590478073920,
  164412590478073920,
  164412590478073920,
  164412590478065730,
  164412590478065730,
  164412590477549760,
  164412590477549760,
  164412590477541570,
  164412590477541570,
  164412590478073920,
  164412590478073920,
  164412453072674880,
  164412453072674880,
  164412590477549760,
  164412590477549760,
  164412453072150720,
  164412453072150720,
  164412590478073920,
  164412590478073920,
  164412590478065730,
  164412590478065730,
  164403796532535360,
  164403796532535360,
  164403796532527170,
  164403796532527170,
  164412590478073920,
  164412590478073920,
  164412590478065730,
  164412590478065730,
  164412590477549760,
  164412590477549760,
  164412590477541570,
  164412590477541570,
  164412590478073920,
  164412590478073920,
  164412590478065730,
  164412590478065730,
  164403796532535360,
  164403796532535360,
  164403796532527170,
  164403796532527170,
  164412590478073920,
  164412590478073920,
  164412590477549760,
  164412590477549760,
  164412590478073920,
  164412590478073920,
  164412590478065730,
  164412590478065730,
  164412590477549760,
  164412590477549760,
  164412590477541570,
  164412590477541570,
  164412590478073920,
  164412590478073920,
  164403796532535360,
  164403796532535360,
  164412590478073920,
  164412590478073920,
  164412590477549760,
  164412590477549760,
  164412590478073920,
  164412590478073920,
  164403796532535360,
  164403796532535360,
  164412590478073920,
  164412590478073920,
  164412590478065730,
  164412590478065730,
  164412590477549760,
  164412590477549760,
  164412590477541570,
  164412590477541570,
  164412590478073920,
  164412590478073920,
  164412453072674880,
  164412453072674880,
  164412590477549760,
  164412590477549760,
  164412453072150720,
  164412453072150720,
  164412590478073920,
  164412590478073920,
  164412590478065730,
  164412590478065730,
  164412590477549760,
  164412590477549760,
  164412590477541570,
  164412590477541570,
  164412590478073920,
  164412590478073920,
  164412590477549760,
  164412590477549760,
  164412590478073920,
  164412590478073920,
  164412590478065730,
  164412590478065730]
def ccdq_t4_aabbaabb_anti0_cert_2 : List Nat := [164412590477549760,
  164412590477549760,
  164412590477541570,
  164412590477541570,
  164412590478073920,
  164412590478073920,
  164412590477549760,
  164412590477549760,
  811818900033884659776,
  811818900033884659776,
  664280976241227210816,
  664280976241227210816,
  811818900033884659776,
  811818900033884659776,
  811818899896479260736,
  811818899896479260736,
  664280976241227210816,
  664280976241227210816,
  664280976103821811776,
  664280976103821811776,
  811818900033884659776,
  811818900033884659776,
  664280976241227210816,
  664280976241227210816,
  811818900033884659776,
  811818900033884659776,
  664280976241227210816,
  664280976241227210816,
  664280976241226686656,
  664280976241226686656,
  664280976241227210816,
  664280976241227210816,
  664280976103821811776,
  664280976103821811776,
  664280976241226686656,
  664280976241226686656,
  664280976103821287616,
  664280976103821287616,
  664280976241227210816,
  664280976241227210816,
  664280976241226686656,
  664280976241226686656,
  811818900033884659776,
  811818900033884659776,
  811818900033884135616,
  811818900033884135616,
  664280976241227210816,
  664280976241227210816,
  811818900033884659776,
  811818900033884659776,
  664280976241227210816,
  664280976241227210816,
  664280976103821811776,
  664280976103821811776,
  811818900033884659776,
  811818900033884659776,
  811818899896479260736,
  811818899896479260736,
  664280976241227210816,
  664280976241227210816,
  811818900033884659776,
  811818900033884659776,
  811818900033884659776,
  811818900033884659776,
  823350366879766814784,
  823350366879766814784,
  823350366879766806594,
  823350366879766806594,
  823350366879766814784,
  823350366879766814784,
  823350366879766806594,
  823350366879766806594,
  823350366879766814784,
  823350366879766814784,
  675812443087109365824,
  675812443087109365824,
  823350366879766814784,
  823350366879766814784,
  675812443087109365824,
  675812443087109365824,
  821045086820506542144,
  821045086820506542144,
  673507163027849093184,
  673507163027849093184,
  823350366879766814784,
  823350366879766814784,
  675812443087109365824,
  675812443087109365824,
  821045086820506542144,
  821045086820506542144,
  673507163027849093184,
  673507163027849093184,
  823350366879766814784,
  823350366879766814784,
  675812443087109365824,
  675812443087109365824,
  823350366879766814784,
  823350366879766814784,
  675812443087109365824,
  675812443087109365824,
  821045086820506542144,
  821045086820506542144,
  673507163027849093184,
  673507163027849093184,
  823350366879766814784,
  823350366879766814784,
  675812443087109365824,
  675812443087109365824,
  821045086820506542144,
  821045086820506542144,
  673507163027849093184,
  673507163027849093184,
  823350366879766814784,
  823350366879766814784,
  675812443087109365824,
  675812443087109365824,
  823350366879766814784,
  823350366879766814784,
  675812443087109365824,
  675812443087109365824,
  821045086820506542144,
  821045086820506542144,
  673507163027849093184,
  673507163027849093184,
  823350366879766814784,
  823350366879766814784,
  675812443087109365824,
  675812443087109365824,
  821045086820506542144,
  821045086820506542144,
  673507163027849093184,
  673507163027849093184,
  823350366879766814784,
  823350366879766814784,
  675812443087109365824,
  675812443087109365824,
  823350366879766814784,
  823350366879766814784,
  675812443087109365824,
  675812443087109365824,
  821045086820506542144,
  821045086820506542144,
  673507163027849093184,
  673507163027849093184,
  823350366879766814784,
  823350366879766814784,
  675812443087109365824,
  675812443087109365824,
  821045086820506542144,
  821045086820506542144,
  673507163027849093184,
  673507163027849093184,
  823350366879766814784,
  823350366879766814784,
  823350366742361415744,
  823350366742361415744,
  823350366879766814784,
  823350366879766814784,
  823350366742361415744,
  823350366742361415744,
  675812443087109365824,
  675812443087109365824,
  675812443087109357634,
  675812443087109357634,
  675812443087109365824,
  675812443087109365824,
  675812442949703966784,
  675812442949703966784,
  675812443087109365824,
  675812443087109365824,
  675812443087109357634,
  675812443087109357634,
  675812443087108841664,
  675812443087108841664,
  675812443087108833474,
  675812443087108833474,
  675812443087109365824,
  675812443087109365824,
  675812443087109357634,
  675812443087109357634,
  675812443087109365824,
  675812443087109365824,
  675812443087109357634,
  675812443087109357634,
  675812443087108841664,
  675812443087108841664,
  675812443087108833474,
  675812443087108833474,
  823350366879766814784,
  823350366879766814784,
  823350366879766814784,
  823350366879766814784,
  823350366879766814784,
  823350366879766814784,
  823350366879766814784,
  823350366879766814784,
  823350366879766814784,
  823350366879766814784,
  673507163027849093184,
  673507163027849093184,
  823350366879766814784,
  823350366879766814784,
  823350366879766806594,
  823350366879766806594,
  823350366879766814784,
  823350366879766814784,
  823350366879766806594,
  823350366879766806594,
  823350366879766814784,
  823350366879766814784,
  823350366879766806594,
  823350366879766806594,
  673507163027849093184,
  673507163027849093184,
  673507163027849084994,
  673507163027849084994,
  823350366879766814784,
  823350366879766814784,
  823350366879766290624,
  823350366879766290624,
  823350366879766814784,
  823350366879766814784,
  821045086820506017984,
  821045086820506017984,
  823350366879766814784,
  823350366879766814784,
  823350366879766290624,
  823350366879766290624,
  673507163027849093184,
  673507163027849093184,
  673507163027848569024,
  673507163027848569024,
  823350366879766814784,
  823350366879766814784,
  823350366879766806594,
  823350366879766806594,
  823350366879766290624,
  823350366879766290624,
  823350366879766282434,
  823350366879766282434,
  673507163027849093184,
  673507163027849093184,
  673507163027849084994,
  673507163027849084994,
  673507163027848569024,
  673507163027848569024,
  673507163027848560834,
  673507163027848560834,
  823350366879766814784,
  823350366879766814784,
  823350366879766814784,
  823350366879766814784,
  823350366879766814784,
  823350366879766814784,
  823350366879766814784,
  823350366879766814784,
  823350366879766814784,
  823350366879766814784,
  673507163027849093184,
  673507163027849093184,
  823350366879766814784,
  823350366879766814784,
  823350366879766290624,
  823350366879766290624,
  823350366879766814784,
  823350366879766814784,
  821045086820506017984,
  821045086820506017984,
  823350366879766814784,
  823350366879766814784,
  823350366879766290624,
  823350366879766290624,
  673507163027849093184,
  673507163027849093184,
  673507163027848569024,
  673507163027848569024,
  821045086820506542144,
  821045086820506542144,
  673507163027849093184,
  673507163027849093184,
  675812443087109365824,
  675812443087109365824,
  673507163027849093184,
  673507163027849093184,
  673507163027848569024,
  673507163027848569024,
  675812443087109365824,
  675812443087109365824,
  675812443087108841664,
  675812443087108841664,
  675812443087109365824,
  675812443087109365824,
  821045086820506542144,
  821045086820506542144,
  675812443087109365824,
  675812443087109365824,
  823350366879766814784,
  823350366879766814784,
  673507163027849093184,
  673507163027849093184,
  675812443087109365824,
  675812443087109365824,
  675812443087108841664,
  675812443087108841664,
  821045086820506542144,
  821045086820506542144,
  821045086820506017984,
  821045086820506017984,
  673507163027849093184,
  673507163027849093184,
  673507163027848569024,
  673507163027848569024,
  675812443087109365824,
  675812443087109365824,
  821045086820506542144,
  821045086820506542144,
  675812443087109365824,
  675812443087109365824,
  823350366879766814784,
  823350366879766814784,
  673507163027849093184,
  673507163027849093184,
  821045086820506542144,
  821045086820506542144,
  821045086683101143104,
  821045086683101143104,
  673507163027849093184,
  673507163027849093184,
  673507162890443694144,
  673507162890443694144,
  675812443087109365824,
  675812443087109365824,
  675812442949703966784,
  675812442949703966784,
  675812443087109365824,
  675812443087109365824,
  675812443087108841664,
  675812443087108841664,
  821045086820506542144,
  821045086820506542144,
  821045086820506017984,
  821045086820506017984,
  673507163027849093184,
  673507163027849093184,
  673507163027848569024,
  673507163027848569024,
  673507163027849093184,
  673507163027849093184,
  673507162890443694144,
  673507162890443694144,
  673507163027848569024,
  673507163027848569024,
  673507162890443169984,
  673507162890443169984,
  675812443087109365824,
  675812443087109365824,
  675812442949703966784,
  675812442949703966784,
  675812443087108841664,
  675812443087108841664,
  675812442949703442624,
  675812442949703442624,
  675812443087109365824,
  675812443087109365824,
  821045086820506542144,
  821045086820506542144,
  675812443087109365824,
  675812443087109365824,
  823350366879766814784,
  823350366879766814784,
  673507163027849093184,
  673507163027849093184,
  821045086820506542144,
  821045086820506542144,
  673507163027849093184,
  673507163027849093184,
  675812443087109365824,
  675812443087109365824,
  821045086820506542144,
  821045086820506542144,
  823350366879766814784,
  823350366879766814784,
  675812443087109365824,
  675812443087109365824,
  675812443087108841664,
  675812443087108841664,
  821045086820506542144,
  821045086820506542144,
  821045086820506017984,
  821045086820506017984,
  673507163027849093184,
  673507163027849093184,
  673507163027848569024,
  673507163027848569024,
  673507163027849093184,
  673507163027849093184,
  673507163027848569024,
  673507163027848569024,
  675812443087109365824,
  675812443087109365824]
def ccdq_t4_aabbaabb_anti0_cert_3 : List Nat := [675812443087108841664,
  675812443087108841664,
  821045086820506542144,
  821045086820506542144,
  821045086820506017984,
  821045086820506017984,
  823350366879766814784,
  823350366879766814784,
  823350366879766290624,
  823350366879766290624,
  675812443087109365824,
  675812443087109365824,
  821045086820506542144,
  821045086820506542144,
  675812443087109365824,
  675812443087109365824,
  823350366879766814784,
  823350366879766814784,
  673507163027849093184,
  673507163027849093184,
  675812443087109365824,
  675812443087109365824,
  675812443087108841664,
  675812443087108841664,
  821045086820506542144,
  821045086820506542144,
  821045086820506017984,
  821045086820506017984,
  673507163027849093184,
  673507163027849093184,
  673507163027848569024,
  673507163027848569024,
  823350366879766814784,
  823350366879766814784,
  823350366742361415744,
  823350366742361415744,
  823350366879766814784,
  823350366879766814784,
  823350366742361415744,
  823350366742361415744,
  821045086820506542144,
  821045086820506542144,
  821045086683101143104,
  821045086683101143104,
  823350366879766814784,
  823350366879766814784,
  823350366742361415744,
  823350366742361415744,
  823350366879766290624,
  823350366879766290624,
  823350366742360891584,
  823350366742360891584,
  821045086820506542144,
  821045086820506542144,
  821045086683101143104,
  821045086683101143104,
  821045086820506017984,
  821045086820506017984,
  821045086683100618944,
  821045086683100618944,
  675812443087109365824,
  675812443087109365824,
  675812443087109357634,
  675812443087109357634,
  675812443087109365824,
  675812443087109365824,
  675812443087109357634,
  675812443087109357634,
  823350366879766814784,
  823350366879766814784,
  821045086820506542144,
  821045086820506542144,
  823350366879766814784,
  823350366879766814784,
  673507163027849093184,
  673507163027849093184,
  823350366879766814784,
  823350366879766814784,
  823350366879766806594,
  823350366879766806594,
  673507163027849093184,
  673507163027849093184,
  673507163027849084994,
  673507163027849084994,
  823350366879766814784,
  823350366879766814784,
  821045086820506542144,
  821045086820506542144,
  823350366879766814784,
  823350366879766814784,
  673507163027849093184,
  673507163027849093184,
  673507163027849093184,
  673507163027849093184,
  675812443087109365824,
  675812443087109365824,
  675812443087109365824,
  675812443087109365824,
  821045086820506542144,
  821045086820506542144,
  673507163027849093184,
  673507163027849093184,
  675812443087109365824,
  675812443087109365824,
  821045086820506542144,
  821045086820506542144,
  673507163027849093184,
  673507163027849093184,
  673507163027849093184,
  673507163027849093184,
  673507162890443694144,
  673507162890443694144,
  675812443087109365824,
  675812443087109365824,
  675812442949703966784,
  675812442949703966784,
  675812443087109365824,
  675812443087109365824,
  821045086820506542144,
  821045086820506542144,
  673507163027849093184,
  673507163027849093184,
  673507163027849093184,
  673507163027849093184,
  675812443087109365824,
  675812443087109365824,
  821045086820506542144,
  821045086820506542144,
  823350366879766814784,
  823350366879766814784,
  675812443087109365824,
  675812443087109365824,
  821045086820506542144,
  821045086820506542144,
  673507163027849093184,
  673507163027849093184,
  823350366879766814784,
  823350366879766814784,
  823350366742361415744,
  823350366742361415744,
  821045086820506542144,
  821045086820506542144,
  821045086683101143104,
  821045086683101143104,
  821045086820506542144,
  821045086820506542144,
  821045086820506533954,
  821045086820506533954,
  673507163027849093184,
  673507163027849093184,
  673507163027849084994,
  673507163027849084994,
  821045086820506542144,
  821045086820506542144,
  821045086820506533954,
  821045086820506533954,
  673507163027849093184,
  673507163027849093184,
  673507163027849084994,
  673507163027849084994,
  821045086820506542144,
  821045086820506542144,
  821045086820506542144,
  821045086820506542144,
  673507163027849093184,
  673507163027849093184,
  673507163027849084994,
  673507163027849084994,
  821045086820506542144,
  821045086820506542144,
  821045086820506542144,
  821045086820506542144,
  821045086820506542144,
  821045086820506542144,
  821045086820506542144,
  821045086820506542144,
  821045086820506542144,
  821045086820506542144,
  821045086820506542144,
  821045086820506542144,
  821045086683101143104,
  821045086683101143104,
  821045086820506542144,
  821045086820506542144,
  821045086820506542144,
  821045086820506542144,
  821045086820506542144,
  821045086820506542144,
  821045086820506542144,
  821045086820506542144,
  821045086820506542144,
  821045086820506542144,
  2283003892211904,
  2283003892211904,
  2282866486812864,
  2282866486812864,
  2283003892211904,
  2283003892211904,
  2283003892203714,
  2283003892203714,
  162160790663864512,
  162160790663864512,
  162160790664388672,
  162160790664388672,
  162160790663864512,
  162160790663864512,
  162151996718325952,
  162151996718325952,
  9226217990700409024,
  9226217990700409024,
  9226217990700409024,
  9226217990700409024,
  11531498049960681664,
  11531498049960681664,
  9226217990700409024,
  9226217990700409024,
  9226217853295009984,
  9226217853295009984,
  11531498049960681664,
  11531498049960681664,
  11531497912555282624,
  11531497912555282624,
  9226217990700409024,
  9226217990700409024,
  11531498049960681664,
  11531498049960681664,
  9226217990700409024,
  9226217990700409024,
  164412590477549760,
  164412590477549760,
  164412453072150720,
  164412453072150720,
  164412590478073920,
  164412590478073920,
  164412453072674880,
  164412453072674880,
  164412590477549760,
  164412590477549760,
  164412590477541570,
  164412590477541570,
  164412590478073920,
  164412590478073920,
  164412590478065730,
  164412590478065730,
  164412590477549760,
  164412590477549760,
  164412590477541570,
  164412590477541570,
  164412590478073920,
  164412590478073920,
  164412590478065730,
  164412590478065730,
  164412590477549760,
  164412590477549760,
  164412453072150720,
  164412453072150720,
  164403796532011200,
  164403796532011200,
  164403659126612160,
  164403659126612160,
  164412590477549760,
  164412590477549760,
  164412453072150720,
  164412453072150720,
  164403796532011200,
  164403796532011200,
  164403659126612160,
  164403659126612160,
  164412590477549760,
  164412590477549760,
  164412590477541570,
  164412590477541570,
  164403796532011200,
  164403796532011200,
  164403796532003010,
  164403796532003010,
  811818900033884135616,
  811818900033884135616,
  811818900033884135616,
  811818900033884135616,
  664280976241226686656,
  664280976241226686656,
  811818900033884135616,
  811818900033884135616,
  811818900033884659776,
  811818900033884659776,
  664280976241226686656,
  664280976241226686656,
  664280976241227210816,
  664280976241227210816,
  811818900033884135616,
  811818900033884135616,
  664280976241226686656,
  664280976241226686656,
  811818900033884135616,
  811818900033884135616,
  823350366879766290624,
  823350366879766290624,
  823350366742360891584,
  823350366742360891584,
  675812443087108841664,
  675812443087108841664,
  675812442949703442624,
  675812442949703442624,
  823350366879766290624,
  823350366879766290624,
  823350366742360891584,
  823350366742360891584,
  823350366879766290624,
  823350366879766290624,
  823350366879766282434,
  823350366879766282434,
  821045086820506017984,
  821045086820506017984,
  821045086820506009794,
  821045086820506009794,
  673507163027848569024,
  673507163027848569024,
  673507163027848560834,
  673507163027848560834,
  821045086820506017984,
  821045086820506017984,
  821045086820506017984,
  821045086820506017984,
  823350366879766290624,
  823350366879766290624,
  673507163027848569024,
  673507163027848569024,
  675812443087108841664,
  675812443087108841664,
  821045086820506017984,
  821045086820506017984,
  821045086683100618944,
  821045086683100618944,
  823350366879766290624,
  823350366879766290624,
  823350366742360891584,
  823350366742360891584,
  673507163027848569024,
  673507163027848569024,
  673507162890443169984,
  673507162890443169984,
  675812443087108841664,
  675812443087108841664,
  675812442949703442624,
  675812442949703442624,
  821045086820506017984,
  821045086820506017984,
  823350366879766290624,
  823350366879766290624,
  673507163027848569024,
  673507163027848569024,
  675812443087108841664,
  675812443087108841664,
  821045086820506017984,
  821045086820506017984,
  821045086820506017984,
  821045086820506017984,
  821045086820506542144,
  821045086820506542144,
  673507163027848569024,
  673507163027848569024,
  673507163027849093184,
  673507163027849093184,
  675812443087108841664,
  675812443087108841664,
  675812443087109365824,
  675812443087109365824,
  675812443087108841664,
  675812443087108841664,
  675812442949703442624,
  675812442949703442624,
  675812443087109365824,
  675812443087109365824,
  675812442949703966784,
  675812442949703966784,
  823350366879766290624,
  823350366879766290624,
  823350366879766282434,
  823350366879766282434,
  823350366879766814784,
  823350366879766814784,
  823350366879766806594,
  823350366879766806594,
  823350366879766290624,
  823350366879766290624,
  823350366879766282434,
  823350366879766282434,
  823350366879766814784,
  823350366879766814784,
  823350366879766806594,
  823350366879766806594,
  673507163027848569024,
  673507163027848569024,
  673507163027848560834,
  673507163027848560834,
  673507163027849093184,
  673507163027849093184,
  673507163027849084994,
  673507163027849084994]
def ccdq_t4_aabbaabb_anti0_cert_4 : List Nat := [823350366879766290624,
  823350366879766290624,
  823350366879766282434,
  823350366879766282434,
  823350366879766814784,
  823350366879766814784,
  823350366879766806594,
  823350366879766806594,
  673507163027848569024,
  673507163027848569024,
  673507163027849093184,
  673507163027849093184,
  675812443087108841664,
  675812443087108841664,
  675812443087109365824,
  675812443087109365824,
  821045086820506017984,
  821045086820506017984,
  821045086820506542144,
  821045086820506542144,
  673507163027848569024,
  673507163027848569024,
  673507162890443169984,
  673507162890443169984,
  673507163027849093184,
  673507163027849093184,
  673507162890443694144,
  673507162890443694144,
  675812443087108841664,
  675812443087108841664,
  675812442949703442624,
  675812442949703442624,
  675812443087109365824,
  675812443087109365824,
  675812442949703966784,
  675812442949703966784,
  821045086820506017984,
  821045086820506017984,
  821045086683100618944,
  821045086683100618944,
  821045086820506542144,
  821045086820506542144,
  821045086683101143104,
  821045086683101143104,
  673507163027848569024,
  673507163027848569024,
  673507163027849093184,
  673507163027849093184,
  675812443087108841664,
  675812443087108841664,
  675812443087109365824,
  675812443087109365824,
  821045086820506017984,
  821045086820506017984,
  821045086820506542144,
  821045086820506542144,
  821045086820506017984,
  821045086820506017984,
  821045086820506542144,
  821045086820506542144,
  821045086820506017984,
  821045086820506017984,
  821045086820506542144,
  821045086820506542144,
  823350366879766290624,
  823350366879766290624,
  823350366879766814784,
  823350366879766814784,
  821045086820506017984,
  821045086820506017984,
  821045078026560479424,
  821045078026560479424,
  823350366879766290624,
  823350366879766290624,
  823350358085820752064,
  823350358085820752064,
  821045086820506017984,
  821045086820506017984,
  821045078026560479424,
  821045078026560479424,
  823350366879766290624,
  823350366879766290624,
  823350366742360891584,
  823350366742360891584,
  823350358085820752064,
  823350358085820752064,
  823350357948415353024,
  823350357948415353024,
  823350366879766290624,
  823350366879766290624,
  823350366742360891584,
  823350366742360891584,
  823350358085820752064,
  823350358085820752064,
  823350357948415353024,
  823350357948415353024,
  673507163027848569024,
  673507163027848569024,
  673507162890443169984,
  673507162890443169984,
  673507154233903030464,
  673507154233903030464,
  673507154096497631424,
  673507154096497631424,
  823350366879766290624,
  823350366879766290624,
  823350366742360891584,
  823350366742360891584,
  823350358085820752064,
  823350358085820752064,
  823350357948415353024,
  823350357948415353024,
  821045086820506017984,
  821045086820506017984,
  821045086820506009794,
  821045086820506009794,
  821045078026560479424,
  821045078026560479424,
  821045078026560471234,
  821045078026560471234,
  673507163027848569024,
  673507163027848569024,
  673507154233903030464,
  673507154233903030464,
  675812443087108841664,
  675812443087108841664,
  675812434293163303104,
  675812434293163303104,
  821045086820506017984,
  821045086820506017984,
  821045078026560479424,
  821045078026560479424,
  821045086820506017984,
  821045086820506017984,
  821045078026560479424,
  821045078026560479424,
  821045086820506017984,
  821045086820506017984,
  821045078026560479424,
  821045078026560479424,
  823350366879766290624,
  823350366879766290624,
  823350358085820752064,
  823350358085820752064,
  821045086820506017984,
  821045086820506017984,
  821045086683100618944,
  821045086683100618944,
  821045078026560479424,
  821045078026560479424,
  821045077889155080384,
  821045077889155080384,
  821045086820506017984,
  821045086820506017984,
  821045086683100618944,
  821045086683100618944,
  821045078026560479424,
  821045078026560479424,
  821045077889155080384,
  821045077889155080384,
  823350366879766290624,
  823350366879766290624,
  823350366742360891584,
  823350366742360891584,
  823350358085820752064,
  823350358085820752064,
  823350357948415353024,
  823350357948415353024,
  821045086820506017984,
  821045086820506017984,
  821045078026560479424,
  821045078026560479424,
  821045086820506017984,
  821045086820506017984,
  821045078026560479424,
  821045078026560479424,
  823350366879766290624,
  823350366879766290624,
  823350358085820752064,
  823350358085820752064,
  821045086820506017984,
  821045086820506017984,
  821045086820506017984,
  821045086820506017984,
  673507163027848569024,
  673507163027848569024,
  823350366879766290624,
  823350366879766290624,
  675812443087108841664,
  675812443087108841664,
  823350366879766290624,
  823350366879766290624,
  823350366742360891584,
  823350366742360891584,
  823350366879766290624,
  823350366879766290624,
  823350366742360891584,
  823350366742360891584,
  675812443087108841664,
  675812443087108841664,
  675812442949703442624,
  675812442949703442624,
  823350366879766290624,
  823350366879766290624,
  823350366879766282434,
  823350366879766282434,
  823350366879766290624,
  823350366879766290624,
  823350366879766282434,
  823350366879766282434,
  675812443087108841664,
  675812443087108841664,
  675812443087108833474,
  675812443087108833474,
  821045086820506017984,
  821045086820506017984,
  821045086820506009794,
  821045086820506009794,
  673507163027848569024,
  673507163027848569024,
  673507163027848560834,
  673507163027848560834,
  823350366879766290624,
  823350366879766290624,
  823350366879766282434,
  823350366879766282434,
  821045086820506017984,
  821045086820506017984,
  821045086820506542144,
  821045086820506542144,
  673507163027848569024,
  673507163027848569024,
  673507163027849093184,
  673507163027849093184,
  823350366879766290624,
  823350366879766290624,
  823350366879766814784,
  823350366879766814784,
  675812443087108841664,
  675812443087108841664,
  675812443087109365824,
  675812443087109365824,
  823350366879766290624,
  823350366879766290624,
  823350366742360891584,
  823350366742360891584,
  823350366879766814784,
  823350366879766814784,
  823350366742361415744,
  823350366742361415744,
  823350366879766290624,
  823350366879766290624,
  823350366742360891584,
  823350366742360891584,
  823350366879766814784,
  823350366879766814784,
  823350366742361415744,
  823350366742361415744,
  675812443087108841664,
  675812443087108841664,
  675812442949703442624,
  675812442949703442624,
  675812443087109365824,
  675812443087109365824,
  675812442949703966784,
  675812442949703966784,
  821045086820506017984,
  821045086820506017984,
  821045086820506009794,
  821045086820506009794,
  821045086820506542144,
  821045086820506542144,
  821045086820506533954,
  821045086820506533954,
  673507163027848569024,
  673507163027848569024,
  673507163027848560834,
  673507163027848560834,
  673507163027849093184,
  673507163027849093184,
  673507163027849084994,
  673507163027849084994,
  823350366879766290624,
  823350366879766290624,
  823350366879766282434,
  823350366879766282434,
  823350366879766814784,
  823350366879766814784,
  823350366879766806594,
  823350366879766806594,
  821045086820506017984,
  821045086820506017984,
  673507163027848569024,
  673507163027848569024,
  823350366879766290624,
  823350366879766290624,
  675812443087108841664,
  675812443087108841664,
  821045086820506017984,
  821045086820506017984,
  823350366879766290624,
  823350366879766290624,
  823350366742360891584,
  823350366742360891584,
  823350366879766290624,
  823350366879766290624,
  823350366742360891584,
  823350366742360891584,
  675812443087108841664,
  675812443087108841664,
  675812442949703442624,
  675812442949703442624,
  821045086820506017984,
  821045086820506017984,
  821045086683100618944,
  821045086683100618944,
  673507163027848569024,
  673507163027848569024,
  673507162890443169984,
  673507162890443169984,
  823350366879766290624,
  823350366879766290624,
  823350366742360891584,
  823350366742360891584,
  821045086820506017984,
  821045086820506017984,
  821045086820506009794,
  821045086820506009794,
  673507163027848569024,
  673507163027848569024,
  673507163027848560834,
  673507163027848560834,
  823350366879766290624,
  823350366879766290624,
  823350366879766282434,
  823350366879766282434,
  9226217990700409024,
  9226217990700409024,
  9226217990700400834,
  9226217990700400834,
  9226217990700409024,
  9226217990700409024,
  9226217990700400834,
  9226217990700400834,
  11531498049960681664,
  11531498049960681664,
  11531498049960681664,
  11531498049960681664,
  9226217990700409024,
  9226217990700409024,
  11531498049960681664,
  11531498049960681664,
  9226217990700409024,
  9226217990700409024,
  11531498049960681664,
  11531498049960681664,
  11531498049960681664,
  11531498049960681664,
  9226217990700409024,
  9226217990700409024,
  11531498049960681664,
  11531498049960681664,
  9226217990700409024,
  9226217990700409024,
  11531498049960681664,
  11531498049960681664,
  11531498049960681664,
  11531498049960681664,
  9226217990700409024,
  9226217990700409024,
  11531498049960681664,
  11531498049960681664,
  9226217990700409024,
  9226217990700409024,
  11531498049960681664,
  11531498049960681664,
  11531498049960681664,
  11531498049960681664,
  9226217990700409024,
  9226217990700409024,
  11531498049960681664,
  11531498049960681664,
  9226217990700409024,
  9226217990700409024,
  9226217990700409024,
  9226217990700409024,
  9226217853295009984,
  9226217853295009984,
  9226217990700409024,
  9226217990700409024,
  9226217853295009984,
  9226217853295009984,
  164412590477549760,
  164412590477549760,
  164412590477541570,
  164412590477541570,
  164412590477549760,
  164412590477549760,
  164412453072150720,
  164412453072150720]
def ccdq_t4_aabbaabb_anti0_cert_5 : List Nat := [164412590477549760,
  164412590477549760,
  164412590477541570,
  164412590477541570,
  164412590478073920,
  164412590478073920,
  164412590478065730,
  164412590478065730,
  164412590477549760,
  164412590477549760,
  164412590477541570,
  164412590477541570,
  164412590477549760,
  164412590477549760,
  164412590477541570,
  164412590477541570,
  164412590478073920,
  164412590478073920,
  164412590478065730,
  164412590478065730,
  164412590477549760,
  164412590477549760,
  164412590477549760,
  164412590477549760,
  164412590477549760,
  164412590477549760,
  164412590477549760,
  164412590477549760,
  164412590477541570,
  164412590477541570,
  164412590477549760,
  164412590477549760,
  164412590477541570,
  164412590477541570,
  164412590477549760,
  164412590477549760,
  164412590478073920,
  164412590478073920,
  164412590477549760,
  164412590477549760,
  164412590478073920,
  164412590478073920,
  164412590477549760,
  164412590477549760,
  164412590477541570,
  164412590477541570,
  164412590478073920,
  164412590478073920,
  164412590478065730,
  164412590478065730,
  164412590477549760,
  164412590477549760,
  164412590477549760,
  164412590477549760,
  164412590477549760,
  164412590477549760,
  164412590477549760,
  164412590477549760,
  164412590478073920,
  164412590478073920,
  164412590477549760,
  164412590477549760,
  164412590478073920,
  164412590478073920,
  164412590477549760,
  164412590477549760,
  164412590477541570,
  164412590477541570,
  164412590477549760,
  164412590477549760,
  164412453072150720,
  164412453072150720,
  164412590477549760,
  164412590477549760,
  164412590477541570,
  164412590477541570,
  164412590477549760,
  164412590477549760,
  164412590477549760,
  164412590477549760,
  164412590477549760,
  164412590477549760,
  164412590477549760,
  164412590477549760,
  164412590477541570,
  164412590477541570,
  164412590477549760,
  164412590477549760,
  164412590477541570,
  164412590477541570,
  164412590477549760,
  164412590477549760,
  164412590477549760,
  164412590477549760,
  164412590477549760,
  164412590477549760,
  164412590477549760,
  164412590477549760,
  164412590477541570,
  164412590477541570,
  164412590478073920,
  164412590478073920,
  164412590478065730,
  164412590478065730,
  164412590477549760,
  164412590477549760,
  164412453072150720,
  164412453072150720,
  164412590478073920,
  164412590478073920,
  164412453072674880,
  164412453072674880,
  164412590477549760,
  164412590477549760,
  164412590477541570,
  164412590477541570,
  164403796532011200,
  164403796532011200,
  164403796532003010,
  164403796532003010,
  164412590477549760,
  164412590477549760,
  164412590477541570,
  164412590477541570,
  164412590478073920,
  164412590478073920,
  164412590478065730,
  164412590478065730,
  164412590477549760,
  164412590477549760,
  164412590477541570,
  164412590477541570,
  164403796532011200,
  164403796532011200,
  164403796532003010,
  164403796532003010,
  164412590477549760,
  164412590477549760,
  164412590478073920,
  164412590478073920,
  164412590477549760,
  164412590477549760,
  164412590477541570,
  164412590477541570,
  164412590478073920,
  164412590478073920,
  164412590478065730,
  164412590478065730,
  164412590477549760,
  164412590477549760,
  164403796532011200,
  164403796532011200,
  164412590477549760,
  164412590477549760,
  164412590478073920,
  164412590478073920,
  164412590477549760,
  164412590477549760,
  164403796532011200,
  164403796532011200,
  164412590477549760,
  164412590477549760,
  164412590477541570,
  164412590477541570,
  164412590478073920,
  164412590478073920,
  164412590478065730,
  164412590478065730,
  164412590477549760,
  164412590477549760,
  164412453072150720,
  164412453072150720,
  164412590478073920,
  164412590478073920,
  164412453072674880,
  164412453072674880,
  164412590477549760,
  164412590477549760,
  164412590477541570,
  164412590477541570,
  164412590478073920,
  164412590478073920,
  164412590478065730,
  164412590478065730,
  164412590477549760,
  164412590477549760,
  164412590478073920,
  164412590478073920,
  164412590477549760,
  164412590477549760,
  164412590477541570,
  164412590477541570,
  164412590478073920,
  164412590478073920,
  164412590478065730,
  164412590478065730,
  164412590477549760,
  164412590477549760,
  164412590478073920,
  164412590478073920,
  811818900033884135616,
  811818900033884135616,
  664280976241226686656,
  664280976241226686656,
  811818900033884135616,
  811818900033884135616,
  811818899896478736576,
  811818899896478736576,
  664280976241226686656,
  664280976241226686656,
  664280976103821287616,
  664280976103821287616,
  811818900033884135616,
  811818900033884135616,
  664280976241226686656,
  664280976241226686656,
  811818900033884135616,
  811818900033884135616,
  664280976241226686656,
  664280976241226686656,
  664280976241227210816,
  664280976241227210816,
  664280976241226686656,
  664280976241226686656,
  664280976103821287616,
  664280976103821287616,
  664280976241227210816,
  664280976241227210816,
  664280976103821811776,
  664280976103821811776,
  664280976241226686656,
  664280976241226686656,
  664280976241227210816,
  664280976241227210816,
  811818900033884135616,
  811818900033884135616,
  811818900033884659776,
  811818900033884659776,
  664280976241226686656,
  664280976241226686656,
  664280976241226686656,
  664280976241226686656,
  664280976241226686656,
  664280976241226686656,
  664280976103821287616,
  664280976103821287616,
  664280976241226686656,
  664280976241226686656,
  664280976103821287616,
  664280976103821287616,
  664280976241226686656,
  664280976241226686656,
  664280976241226686656,
  664280976241226686656,
  811818900033884135616,
  811818900033884135616,
  821045086820506017984,
  821045086820506017984,
  821045086820506009794,
  821045086820506009794,
  821045086820506017984,
  821045086820506017984,
  821045086820506009794,
  821045086820506009794,
  823350366879766290624,
  823350366879766290624,
  675812443087108841664,
  675812443087108841664,
  823350366879766290624,
  823350366879766290624,
  675812443087108841664,
  675812443087108841664,
  821045086820506017984,
  821045086820506017984,
  673507163027848569024,
  673507163027848569024,
  823350366879766290624,
  823350366879766290624,
  675812443087108841664,
  675812443087108841664,
  821045086820506017984,
  821045086820506017984,
  673507163027848569024,
  673507163027848569024,
  823350366879766290624,
  823350366879766290624,
  675812443087108841664,
  675812443087108841664,
  823350366879766290624,
  823350366879766290624,
  675812443087108841664,
  675812443087108841664,
  821045086820506017984,
  821045086820506017984,
  673507163027848569024,
  673507163027848569024,
  823350366879766290624,
  823350366879766290624,
  675812443087108841664,
  675812443087108841664,
  821045086820506017984,
  821045086820506017984,
  673507163027848569024,
  673507163027848569024,
  823350366879766290624,
  823350366879766290624,
  675812443087108841664,
  675812443087108841664,
  823350366879766290624,
  823350366879766290624,
  675812443087108841664,
  675812443087108841664,
  821045086820506017984,
  821045086820506017984,
  673507163027848569024,
  673507163027848569024,
  823350366879766290624,
  823350366879766290624,
  675812443087108841664,
  675812443087108841664,
  821045086820506017984,
  821045086820506017984,
  673507163027848569024,
  673507163027848569024,
  823350366879766290624,
  823350366879766290624,
  675812443087108841664,
  675812443087108841664,
  823350366879766290624,
  823350366879766290624,
  675812443087108841664,
  675812443087108841664,
  821045086820506017984,
  821045086820506017984,
  673507163027848569024,
  673507163027848569024,
  823350366879766290624,
  823350366879766290624,
  675812443087108841664,
  675812443087108841664,
  821045086820506017984,
  821045086820506017984,
  673507163027848569024,
  673507163027848569024,
  821045086820506017984,
  821045086820506017984,
  821045086683100618944,
  821045086683100618944,
  821045086820506017984,
  821045086820506017984,
  821045086683100618944,
  821045086683100618944,
  675812443087108841664,
  675812443087108841664,
  675812443087108833474,
  675812443087108833474,
  675812443087108841664,
  675812443087108841664,
  675812442949703442624,
  675812442949703442624,
  675812443087108841664,
  675812443087108841664,
  675812443087108833474,
  675812443087108833474,
  675812443087109365824,
  675812443087109365824,
  675812443087109357634,
  675812443087109357634,
  675812443087108841664,
  675812443087108841664,
  675812443087108833474,
  675812443087108833474,
  675812443087108841664,
  675812443087108841664,
  675812443087108833474,
  675812443087108833474,
  675812443087109365824,
  675812443087109365824,
  675812443087109357634,
  675812443087109357634,
  823350366879766290624,
  823350366879766290624,
  821045086820506017984,
  821045086820506017984,
  823350366879766290624,
  823350366879766290624,
  675812443087108841664,
  675812443087108841664,
  823350366879766290624,
  823350366879766290624,
  673507163027848569024,
  673507163027848569024,
  823350366879766290624,
  823350366879766290624,
  823350366879766282434,
  823350366879766282434,
  675812443087108841664,
  675812443087108841664,
  675812443087108833474,
  675812443087108833474]
def ccdq_t4_aabbaabb_anti0_cert_6 : List Nat := [823350366879766290624,
  823350366879766290624,
  823350366879766282434,
  823350366879766282434,
  673507163027848569024,
  673507163027848569024,
  673507163027848560834,
  673507163027848560834,
  823350366879766290624,
  823350366879766290624,
  823350366879766814784,
  823350366879766814784,
  821045086820506017984,
  821045086820506017984,
  823350366879766814784,
  823350366879766814784,
  823350366879766290624,
  823350366879766290624,
  823350366879766814784,
  823350366879766814784,
  673507163027848569024,
  673507163027848569024,
  673507163027849093184,
  673507163027849093184,
  823350366879766290624,
  823350366879766290624,
  823350366879766282434,
  823350366879766282434,
  823350366879766814784,
  823350366879766814784,
  823350366879766806594,
  823350366879766806594,
  673507163027848569024,
  673507163027848569024,
  673507163027848560834,
  673507163027848560834,
  673507163027849093184,
  673507163027849093184,
  673507163027849084994,
  673507163027849084994,
  823350366879766290624,
  823350366879766290624,
  821045086820506017984,
  821045086820506017984,
  823350366879766290624,
  823350366879766290624,
  675812443087108841664,
  675812443087108841664,
  823350366879766290624,
  823350366879766290624,
  673507163027848569024,
  673507163027848569024,
  823350366879766290624,
  823350366879766290624,
  823350366879766814784,
  823350366879766814784,
  821045086820506017984,
  821045086820506017984,
  823350366879766814784,
  823350366879766814784,
  823350366879766290624,
  823350366879766290624,
  823350366879766814784,
  823350366879766814784,
  673507163027848569024,
  673507163027848569024,
  673507163027849093184,
  673507163027849093184,
  673507163027848569024,
  673507163027848569024,
  673507163027848569024,
  673507163027848569024,
  675812443087108841664,
  675812443087108841664,
  673507163027848569024,
  673507163027848569024,
  673507163027849093184,
  673507163027849093184,
  675812443087108841664,
  675812443087108841664,
  675812443087109365824,
  675812443087109365824,
  675812443087108841664,
  675812443087108841664,
  821045086820506017984,
  821045086820506017984,
  675812443087108841664,
  675812443087108841664,
  675812443087108841664,
  675812443087108841664,
  673507163027848569024,
  673507163027848569024,
  675812443087108841664,
  675812443087108841664,
  675812443087109365824,
  675812443087109365824,
  821045086820506017984,
  821045086820506017984,
  821045086820506542144,
  821045086820506542144,
  673507163027848569024,
  673507163027848569024,
  673507163027849093184,
  673507163027849093184,
  675812443087108841664,
  675812443087108841664,
  821045086820506017984,
  821045086820506017984,
  675812443087108841664,
  675812443087108841664,
  675812443087108841664,
  675812443087108841664,
  673507163027848569024,
  673507163027848569024,
  673507163027848569024,
  673507163027848569024,
  673507162890443169984,
  673507162890443169984,
  673507163027848569024,
  673507163027848569024,
  673507162890443169984,
  673507162890443169984,
  675812443087108841664,
  675812443087108841664,
  675812442949703442624,
  675812442949703442624,
  675812443087108841664,
  675812443087108841664,
  675812443087109365824,
  675812443087109365824,
  821045086820506017984,
  821045086820506017984,
  821045086820506542144,
  821045086820506542144,
  673507163027848569024,
  673507163027848569024,
  673507163027849093184,
  673507163027849093184,
  673507163027848569024,
  673507163027848569024,
  673507162890443169984,
  673507162890443169984,
  673507163027849093184,
  673507163027849093184,
  673507162890443694144,
  673507162890443694144,
  675812443087108841664,
  675812443087108841664,
  675812442949703442624,
  675812442949703442624,
  675812443087109365824,
  675812443087109365824,
  675812442949703966784,
  675812442949703966784,
  675812443087108841664,
  675812443087108841664,
  821045086820506017984,
  821045086820506017984,
  675812443087108841664,
  675812443087108841664,
  675812443087108841664,
  675812443087108841664,
  673507163027848569024,
  673507163027848569024,
  673507163027848569024,
  673507163027848569024,
  673507163027848569024,
  673507163027848569024,
  675812443087108841664,
  675812443087108841664,
  821045086820506017984,
  821045086820506017984,
  823350366879766290624,
  823350366879766290624,
  675812443087108841664,
  675812443087108841664,
  675812443087109365824,
  675812443087109365824,
  821045086820506017984,
  821045086820506017984,
  821045086820506542144,
  821045086820506542144,
  673507163027848569024,
  673507163027848569024,
  673507163027849093184,
  673507163027849093184,
  673507163027848569024,
  673507163027848569024,
  673507163027849093184,
  673507163027849093184,
  675812443087108841664,
  675812443087108841664,
  675812443087109365824,
  675812443087109365824,
  821045086820506017984,
  821045086820506017984,
  821045086820506542144,
  821045086820506542144,
  823350366879766290624,
  823350366879766290624,
  823350366879766814784,
  823350366879766814784,
  675812443087108841664,
  675812443087108841664,
  821045086820506017984,
  821045086820506017984,
  675812443087108841664,
  675812443087108841664,
  675812443087108841664,
  675812443087108841664,
  673507163027848569024,
  673507163027848569024,
  675812443087108841664,
  675812443087108841664,
  675812443087109365824,
  675812443087109365824,
  821045086820506017984,
  821045086820506017984,
  821045086820506542144,
  821045086820506542144,
  673507163027848569024,
  673507163027848569024,
  673507163027849093184,
  673507163027849093184,
  823350366879766290624,
  823350366879766290624,
  823350366742360891584,
  823350366742360891584,
  823350366879766290624,
  823350366879766290624,
  823350366742360891584,
  823350366742360891584,
  821045086820506017984,
  821045086820506017984,
  821045086683100618944,
  821045086683100618944,
  823350366879766290624,
  823350366879766290624,
  823350366742360891584,
  823350366742360891584,
  823350366879766814784,
  823350366879766814784,
  823350366742361415744,
  823350366742361415744,
  821045086820506017984,
  821045086820506017984,
  821045086683100618944,
  821045086683100618944,
  821045086820506542144,
  821045086820506542144,
  821045086683101143104,
  821045086683101143104,
  675812443087108841664,
  675812443087108841664,
  675812443087108833474,
  675812443087108833474,
  675812443087108841664,
  675812443087108841664,
  675812443087108833474,
  675812443087108833474,
  823350366879766290624,
  823350366879766290624,
  823350366879766290624,
  823350366879766290624,
  823350366879766290624,
  823350366879766290624,
  673507163027848569024,
  673507163027848569024,
  823350366879766290624,
  823350366879766290624,
  823350366879766282434,
  823350366879766282434,
  673507163027848569024,
  673507163027848569024,
  673507163027848560834,
  673507163027848560834,
  823350366879766290624,
  823350366879766290624,
  823350366879766290624,
  823350366879766290624,
  823350366879766290624,
  823350366879766290624,
  673507163027848569024,
  673507163027848569024,
  673507163027848569024,
  673507163027848569024,
  675812443087108841664,
  675812443087108841664,
  675812443087108841664,
  675812443087108841664,
  821045086820506017984,
  821045086820506017984,
  673507163027848569024,
  673507163027848569024,
  675812443087108841664,
  675812443087108841664,
  821045086820506017984,
  821045086820506017984,
  673507163027848569024,
  673507163027848569024,
  673507163027848569024,
  673507163027848569024,
  673507162890443169984,
  673507162890443169984,
  675812443087108841664,
  675812443087108841664,
  675812442949703442624,
  675812442949703442624,
  675812443087108841664,
  675812443087108841664,
  821045086820506017984,
  821045086820506017984,
  673507163027848569024,
  673507163027848569024,
  673507163027848569024,
  673507163027848569024,
  675812443087108841664,
  675812443087108841664,
  821045086820506017984,
  821045086820506017984,
  823350366879766290624,
  823350366879766290624,
  675812443087108841664,
  675812443087108841664,
  821045086820506017984,
  821045086820506017984,
  673507163027848569024,
  673507163027848569024,
  823350366879766290624,
  823350366879766290624,
  823350366742360891584,
  823350366742360891584,
  821045086820506017984,
  821045086820506017984,
  821045086683100618944,
  821045086683100618944,
  821045086820506017984,
  821045086820506017984,
  821045086820506009794,
  821045086820506009794,
  673507163027848569024,
  673507163027848569024,
  673507163027848560834,
  673507163027848560834,
  821045086820506017984,
  821045086820506017984,
  821045086820506009794,
  821045086820506009794,
  673507163027848569024,
  673507163027848569024,
  673507163027848560834,
  673507163027848560834,
  821045086820506017984,
  821045086820506017984,
  821045086820506017984,
  821045086820506017984,
  673507163027848569024,
  673507163027848569024,
  673507163027848560834,
  673507163027848560834,
  821045086820506017984,
  821045086820506017984,
  821045086820506017984,
  821045086820506017984,
  821045086820506017984,
  821045086820506017984,
  821045086820506017984,
  821045086820506017984,
  821045086820506017984,
  821045086820506017984,
  821045086820506017984,
  821045086820506017984,
  821045086683100618944,
  821045086683100618944,
  821045086820506017984,
  821045086820506017984,
  821045086820506017984,
  821045086820506017984,
  821045086820506017984,
  821045086820506017984,
  821045086820506017984,
  821045086820506017984,
  821045086820506017984,
  821045086820506017984]

/-- Check ccdq_t4_aabbaabb_anti0. Sign of aabbaabb under [1, 0, 2, 3, 4, 5, 6, 7]. -/
theorem ccdq_t4_aabbaabb_anti0 : isZero kinds [aᵥ, bᵥ, cᵥ, dᵥ, iₒ, jₒ, kₒ, lₒ] 100000000000000
    (ccdq_t4_aabbaabb ++ (Prog.outs [1, 0, 2, 3, 4, 5, 6, 7] (ccdq_t4_aabbaabb)))
    (ccdq_t4_aabbaabb_anti0_cert_0 ++ (ccdq_t4_aabbaabb_anti0_cert_1 ++ (ccdq_t4_aabbaabb_anti0_cert_2 ++ (ccdq_t4_aabbaabb_anti0_cert_3 ++ (ccdq_t4_aabbaabb_anti0_cert_4 ++ (ccdq_t4_aabbaabb_anti0_cert_5 ++ (ccdq_t4_aabbaabb_anti0_cert_6))))))) = true := by decide +kernel

def ccdq_t4_aabbaabb_anti1_cert_0 : List Nat := [2283003892736064,
  2283003892736064,
  2282866487337024,
  2282866487337024,
  2283003892736064,
  2283003892736064,
  2283003892727874,
  2283003892727874,
  162160790664388672,
  162160790664388672,
  162160790663864512,
  162160790663864512,
  162160790664388672,
  162160790664388672,
  162151996718850112,
  162151996718850112,
  9226217990700933184,
  9226217990700933184,
  9226217990700933184,
  9226217990700933184,
  11531498049961205824,
  11531498049961205824,
  9226217990700933184,
  9226217990700933184,
  9226217853295534144,
  9226217853295534144,
  11531498049961205824,
  11531498049961205824,
  11531497912555806784,
  11531497912555806784,
  9226217990700933184,
  9226217990700933184,
  11531498049961205824,
  11531498049961205824,
  9226217990700933184,
  9226217990700933184,
  164412590478073920,
  164412590478073920,
  164412453072674880,
  164412453072674880,
  164412590477549760,
  164412590477549760,
  164412453072150720,
  164412453072150720,
  164412590478073920,
  164412590478073920,
  164412590478065730,
  164412590478065730,
  164412590477549760,
  164412590477549760,
  164412590477541570,
  164412590477541570,
  164412590478073920,
  164412590478073920,
  164412590478065730,
  164412590478065730,
  164412590477549760,
  164412590477549760,
  164412590477541570,
  164412590477541570,
  164412590478073920,
  164412590478073920,
  164412453072674880,
  164412453072674880,
  164403796532535360,
  164403796532535360,
  164403659127136320,
  164403659127136320,
  164412590478073920,
  164412590478073920,
  164412453072674880,
  164412453072674880,
  164403796532535360,
  164403796532535360,
  164403659127136320,
  164403659127136320,
  164412590478073920,
  164412590478073920,
  164412590478065730,
  164412590478065730,
  164403796532535360,
  164403796532535360,
  164403796532527170,
  164403796532527170,
  811818900033884659776,
  811818900033884659776,
  811818900033884659776,
  811818900033884659776,
  664280976241227210816,
  664280976241227210816,
  811818900033884659776,
  811818900033884659776,
  811818900033884135616,
  811818900033884135616,
  664280976241227210816,
  664280976241227210816,
  664280976241226686656,
  664280976241226686656,
  811818900033884659776,
  811818900033884659776,
  664280976241227210816,
  664280976241227210816,
  811818900033884659776,
  811818900033884659776,
  823350366879766814784,
  823350366879766814784,
  823350366742361415744,
  823350366742361415744,
  675812443087109365824,
  675812443087109365824,
  675812442949703966784,
  675812442949703966784,
  823350366879766814784,
  823350366879766814784,
  823350366742361415744,
  823350366742361415744,
  823350366879766814784,
  823350366879766814784,
  823350366879766806594,
  823350366879766806594,
  821045086820506542144,
  821045086820506542144,
  821045086820506533954,
  821045086820506533954,
  673507163027849093184,
  673507163027849093184,
  673507163027849084994,
  673507163027849084994,
  821045086820506542144,
  821045086820506542144,
  821045086820506542144,
  821045086820506542144,
  823350366879766814784,
  823350366879766814784,
  673507163027849093184,
  673507163027849093184,
  675812443087109365824,
  675812443087109365824,
  821045086820506542144,
  821045086820506542144,
  821045086683101143104,
  821045086683101143104,
  823350366879766814784,
  823350366879766814784,
  823350366742361415744,
  823350366742361415744,
  673507163027849093184,
  673507163027849093184,
  673507162890443694144,
  673507162890443694144,
  675812443087109365824,
  675812443087109365824,
  675812442949703966784,
  675812442949703966784,
  821045086820506542144,
  821045086820506542144,
  823350366879766814784,
  823350366879766814784,
  673507163027849093184,
  673507163027849093184,
  675812443087109365824,
  675812443087109365824,
  821045086820506542144,
  821045086820506542144,
  821045086820506542144,
  821045086820506542144,
  821045086820506017984,
  821045086820506017984,
  673507163027849093184,
  673507163027849093184,
  673507163027848569024,
  673507163027848569024,
  675812443087109365824,
  675812443087109365824,
  675812443087108841664,
  675812443087108841664,
  675812443087109365824,
  675812443087109365824,
  675812442949703966784,
  675812442949703966784,
  675812443087108841664,
  675812443087108841664,
  675812442949703442624,
  675812442949703442624,
  823350366879766814784,
  823350366879766814784,
  823350366879766806594,
  823350366879766806594,
  823350366879766290624,
  823350366879766290624,
  823350366879766282434,
  823350366879766282434,
  823350366879766814784,
  823350366879766814784,
  823350366879766806594,
  823350366879766806594,
  823350366879766290624,
  823350366879766290624,
  823350366879766282434,
  823350366879766282434,
  673507163027849093184,
  673507163027849093184,
  673507163027849084994,
  673507163027849084994,
  673507163027848569024,
  673507163027848569024,
  673507163027848560834,
  673507163027848560834,
  823350366879766814784,
  823350366879766814784,
  823350366879766806594,
  823350366879766806594,
  823350366879766290624,
  823350366879766290624,
  823350366879766282434,
  823350366879766282434,
  673507163027849093184,
  673507163027849093184,
  673507163027848569024,
  673507163027848569024,
  675812443087109365824,
  675812443087109365824,
  675812443087108841664,
  675812443087108841664,
  821045086820506542144,
  821045086820506542144,
  821045086820506017984,
  821045086820506017984,
  673507163027849093184,
  673507163027849093184,
  673507162890443694144,
  673507162890443694144,
  673507163027848569024,
  673507163027848569024,
  673507162890443169984,
  673507162890443169984,
  675812443087109365824,
  675812443087109365824,
  675812442949703966784,
  675812442949703966784,
  675812443087108841664,
  675812443087108841664,
  675812442949703442624,
  675812442949703442624,
  821045086820506542144,
  821045086820506542144,
  821045086683101143104,
  821045086683101143104,
  821045086820506017984,
  821045086820506017984,
  821045086683100618944,
  821045086683100618944,
  673507163027849093184,
  673507163027849093184,
  673507163027848569024,
  673507163027848569024,
  675812443087109365824,
  675812443087109365824,
  675812443087108841664,
  675812443087108841664,
  821045086820506542144,
  821045086820506542144,
  821045086820506017984,
  821045086820506017984,
  821045086820506542144,
  821045086820506542144,
  821045086820506017984,
  821045086820506017984,
  821045086820506542144,
  821045086820506542144,
  821045086820506017984,
  821045086820506017984,
  823350366879766814784,
  823350366879766814784,
  823350366879766290624,
  823350366879766290624,
  821045086820506542144,
  821045086820506542144,
  821045078026561003584,
  821045078026561003584,
  823350366879766814784,
  823350366879766814784,
  823350358085821276224,
  823350358085821276224,
  821045086820506542144,
  821045086820506542144,
  821045078026561003584,
  821045078026561003584,
  823350366879766814784,
  823350366879766814784,
  823350366742361415744,
  823350366742361415744,
  823350358085821276224,
  823350358085821276224,
  823350357948415877184,
  823350357948415877184,
  823350366879766814784,
  823350366879766814784,
  823350366742361415744,
  823350366742361415744,
  823350358085821276224,
  823350358085821276224,
  823350357948415877184,
  823350357948415877184,
  673507163027849093184,
  673507163027849093184,
  673507162890443694144,
  673507162890443694144,
  673507154233903554624,
  673507154233903554624,
  673507154096498155584,
  673507154096498155584,
  823350366879766814784,
  823350366879766814784,
  823350366742361415744,
  823350366742361415744,
  823350358085821276224,
  823350358085821276224,
  823350357948415877184,
  823350357948415877184,
  821045086820506542144,
  821045086820506542144,
  821045086820506533954,
  821045086820506533954,
  821045078026561003584,
  821045078026561003584,
  821045078026560995394,
  821045078026560995394,
  673507163027849093184,
  673507163027849093184,
  673507154233903554624,
  673507154233903554624,
  675812443087109365824,
  675812443087109365824,
  675812434293163827264,
  675812434293163827264,
  821045086820506542144,
  821045086820506542144,
  821045078026561003584,
  821045078026561003584,
  821045086820506542144,
  821045086820506542144,
  821045078026561003584,
  821045078026561003584,
  821045086820506542144,
  821045086820506542144,
  821045078026561003584,
  821045078026561003584,
  823350366879766814784,
  823350366879766814784,
  823350358085821276224,
  823350358085821276224,
  821045086820506542144,
  821045086820506542144,
  821045086683101143104,
  821045086683101143104,
  821045078026561003584,
  821045078026561003584,
  821045077889155604544,
  821045077889155604544,
  821045086820506542144,
  821045086820506542144,
  821045086683101143104,
  821045086683101143104,
  821045078026561003584,
  821045078026561003584,
  821045077889155604544,
  821045077889155604544,
  823350366879766814784,
  823350366879766814784,
  823350366742361415744,
  823350366742361415744,
  823350358085821276224,
  823350358085821276224,
  823350357948415877184,
  823350357948415877184,
  821045086820506542144,
  821045086820506542144,
  821045078026561003584,
  821045078026561003584,
  821045086820506542144,
  821045086820506542144,
  821045078026561003584,
  821045078026561003584,
  823350366879766814784,
  823350366879766814784,
  823350358085821276224,
  823350358085821276224,
  821045086820506542144,
  821045086820506542144,
  821045086820506542144,
  821045086820506542144,
  673507163027849093184,
  673507163027849093184,
  823350366879766814784,
  823350366879766814784,
  675812443087109365824,
  675812443087109365824,
  823350366879766814784,
  823350366879766814784]
def ccdq_t4_aabbaabb_anti1_cert_1 : List Nat := [823350366742361415744,
  823350366742361415744,
  823350366879766814784,
  823350366879766814784,
  823350366742361415744,
  823350366742361415744,
  675812443087109365824,
  675812443087109365824,
  675812442949703966784,
  675812442949703966784,
  823350366879766814784,
  823350366879766814784,
  823350366879766806594,
  823350366879766806594,
  823350366879766814784,
  823350366879766814784,
  823350366879766806594,
  823350366879766806594,
  675812443087109365824,
  675812443087109365824,
  675812443087109357634,
  675812443087109357634,
  821045086820506542144,
  821045086820506542144,
  821045086820506533954,
  821045086820506533954,
  673507163027849093184,
  673507163027849093184,
  673507163027849084994,
  673507163027849084994,
  823350366879766814784,
  823350366879766814784,
  823350366879766806594,
  823350366879766806594,
  821045086820506542144,
  821045086820506542144,
  821045086820506017984,
  821045086820506017984,
  673507163027849093184,
  673507163027849093184,
  673507163027848569024,
  673507163027848569024,
  823350366879766814784,
  823350366879766814784,
  823350366879766290624,
  823350366879766290624,
  675812443087109365824,
  675812443087109365824,
  675812443087108841664,
  675812443087108841664,
  823350366879766814784,
  823350366879766814784,
  823350366742361415744,
  823350366742361415744,
  823350366879766290624,
  823350366879766290624,
  823350366742360891584,
  823350366742360891584,
  823350366879766814784,
  823350366879766814784,
  823350366742361415744,
  823350366742361415744,
  823350366879766290624,
  823350366879766290624,
  823350366742360891584,
  823350366742360891584,
  675812443087109365824,
  675812443087109365824,
  675812442949703966784,
  675812442949703966784,
  675812443087108841664,
  675812443087108841664,
  675812442949703442624,
  675812442949703442624,
  821045086820506542144,
  821045086820506542144,
  821045086820506533954,
  821045086820506533954,
  821045086820506017984,
  821045086820506017984,
  821045086820506009794,
  821045086820506009794,
  673507163027849093184,
  673507163027849093184,
  673507163027849084994,
  673507163027849084994,
  673507163027848569024,
  673507163027848569024,
  673507163027848560834,
  673507163027848560834,
  823350366879766814784,
  823350366879766814784,
  823350366879766806594,
  823350366879766806594,
  823350366879766290624,
  823350366879766290624,
  823350366879766282434,
  823350366879766282434,
  821045086820506542144,
  821045086820506542144,
  673507163027849093184,
  673507163027849093184,
  823350366879766814784,
  823350366879766814784,
  675812443087109365824,
  675812443087109365824,
  821045086820506542144,
  821045086820506542144,
  823350366879766814784,
  823350366879766814784,
  823350366742361415744,
  823350366742361415744,
  823350366879766814784,
  823350366879766814784,
  823350366742361415744,
  823350366742361415744,
  675812443087109365824,
  675812443087109365824,
  675812442949703966784,
  675812442949703966784,
  821045086820506542144,
  821045086820506542144,
  821045086683101143104,
  821045086683101143104,
  673507163027849093184,
  673507163027849093184,
  673507162890443694144,
  673507162890443694144,
  823350366879766814784,
  823350366879766814784,
  823350366742361415744,
  823350366742361415744,
  821045086820506542144,
  821045086820506542144,
  821045086820506533954,
  821045086820506533954,
  673507163027849093184,
  673507163027849093184,
  673507163027849084994,
  673507163027849084994,
  823350366879766814784,
  823350366879766814784,
  823350366879766806594,
  823350366879766806594,
  11531498049961205824,
  11531498049961205824,
  11531498049961197634,
  11531498049961197634,
  11531498049961205824,
  11531498049961205824,
  11531498049961197634,
  11531498049961197634,
  11531498049961205824,
  11531498049961205824,
  11531498049961205824,
  11531498049961205824,
  9226217990700933184,
  9226217990700933184,
  11531498049961205824,
  11531498049961205824,
  9226217990700933184,
  9226217990700933184,
  11531498049961205824,
  11531498049961205824,
  11531498049961205824,
  11531498049961205824,
  9226217990700933184,
  9226217990700933184,
  11531498049961205824,
  11531498049961205824,
  9226217990700933184,
  9226217990700933184,
  11531498049961205824,
  11531498049961205824,
  11531498049961205824,
  11531498049961205824,
  9226217990700933184,
  9226217990700933184,
  11531498049961205824,
  11531498049961205824,
  9226217990700933184,
  9226217990700933184,
  11531498049961205824,
  11531498049961205824,
  11531498049961205824,
  11531498049961205824,
  9226217990700933184,
  9226217990700933184,
  11531498049961205824,
  11531498049961205824,
  9226217990700933184,
  9226217990700933184,
  11531498049961205824,
  11531498049961205824,
  11531497912555806784,
  11531497912555806784,
  11531498049961205824,
  11531498049961205824,
  11531497912555806784,
  11531497912555806784,
  164412590478073920,
  164412590478073920,
  164412590478065730,
  164412590478065730,
  164412590478073920,
  164412590478073920,
  164412453072674880,
  164412453072674880,
  164412590478073920,
  164412590478073920,
  164412590478065730,
  164412590478065730,
  164412590477549760,
  164412590477549760,
  164412590477541570,
  164412590477541570,
  164412590478073920,
  164412590478073920,
  164412590478065730,
  164412590478065730,
  164412590478073920,
  164412590478073920,
  164412590478065730,
  164412590478065730,
  164412590477549760,
  164412590477549760,
  164412590477541570,
  164412590477541570,
  164412590478073920,
  164412590478073920,
  164412590478073920,
  164412590478073920,
  164412590478073920,
  164412590478073920,
  164412590478073920,
  164412590478073920,
  164412590478065730,
  164412590478065730,
  164412590478073920,
  164412590478073920,
  164412590478065730,
  164412590478065730,
  164412590478073920,
  164412590478073920,
  164412590477549760,
  164412590477549760,
  164412590478073920,
  164412590478073920,
  164412590477549760,
  164412590477549760,
  164412590478073920,
  164412590478073920,
  164412590478065730,
  164412590478065730,
  164412590477549760,
  164412590477549760,
  164412590477541570,
  164412590477541570,
  164412590478073920,
  164412590478073920,
  164412590478073920,
  164412590478073920,
  164412590478073920,
  164412590478073920,
  164412590478073920,
  164412590478073920,
  164412590477549760,
  164412590477549760,
  164412590478073920,
  164412590478073920,
  164412590477549760,
  164412590477549760,
  164412590478073920,
  164412590478073920,
  164412590478065730,
  164412590478065730,
  164412590478073920,
  164412590478073920,
  164412453072674880,
  164412453072674880,
  164412590478073920,
  164412590478073920,
  164412590478065730,
  164412590478065730,
  164412590478073920,
  164412590478073920,
  164412590478073920,
  164412590478073920,
  164412590478073920,
  164412590478073920,
  164412590478073920,
  164412590478073920,
  164412590478065730,
  164412590478065730,
  164412590478073920,
  164412590478073920,
  164412590478065730,
  164412590478065730,
  164412590478073920,
  164412590478073920,
  164412590478073920,
  164412590478073920,
  164412590478073920,
  164412590478073920,
  164412590478073920,
  164412590478073920,
  164412590478065730,
  164412590478065730,
  164412590477549760,
  164412590477549760,
  164412590477541570,
  164412590477541570,
  164412590478073920,
  164412590478073920,
  164412453072674880,
  164412453072674880,
  164412590477549760,
  164412590477549760,
  164412453072150720,
  164412453072150720,
  164412590478073920,
  164412590478073920,
  164412590478065730,
  164412590478065730,
  164403796532535360,
  164403796532535360,
  164403796532527170,
  164403796532527170,
  164412590478073920,
  164412590478073920,
  164412590478065730,
  164412590478065730,
  164412590477549760,
  164412590477549760,
  164412590477541570,
  164412590477541570,
  164412590478073920,
  164412590478073920,
  164412590478065730,
  164412590478065730,
  164403796532535360,
  164403796532535360,
  164403796532527170,
  164403796532527170,
  164412590478073920,
  164412590478073920,
  164412590477549760,
  164412590477549760,
  164412590478073920,
  164412590478073920,
  164412590478065730,
  164412590478065730,
  164412590477549760,
  164412590477549760,
  164412590477541570,
  164412590477541570,
  164412590478073920,
  164412590478073920,
  164403796532535360,
  164403796532535360,
  164412590478073920,
  164412590478073920,
  164412590477549760,
  164412590477549760,
  164412590478073920,
  164412590478073920,
  164403796532535360,
  164403796532535360,
  164412590478073920,
  164412590478073920,
  164412590478065730,
  164412590478065730,
  164412590477549760,
  164412590477549760,
  164412590477541570,
  164412590477541570,
  164412590478073920,
  164412590478073920,
  164412453072674880,
  164412453072674880,
  164412590477549760,
  164412590477549760,
  164412453072150720,
  164412453072150720,
  164412590478073920,
  164412590478073920,
  164412590478065730,
  164412590478065730,
  164412590477549760,
  164412590477549760,
  164412590477541570,
  164412590477541570,
  164412590478073920,
  164412590478073920,
  164412590477549760,
  164412590477549760,
  164412590478073920,
  164412590478073920,
  164412590478065730,
  164412590478065730]
def ccdq_t4_aabbaabb_anti1_cert_2 : List Nat := [164412590477549760,
  164412590477549760,
  164412590477541570,
  164412590477541570,
  164412590478073920,
  164412590478073920,
  164412590477549760,
  164412590477549760,
  811818900033884659776,
  811818900033884659776,
  664280976241227210816,
  664280976241227210816,
  811818900033884659776,
  811818900033884659776,
  811818899896479260736,
  811818899896479260736,
  664280976241227210816,
  664280976241227210816,
  664280976103821811776,
  664280976103821811776,
  811818900033884659776,
  811818900033884659776,
  664280976241227210816,
  664280976241227210816,
  811818900033884659776,
  811818900033884659776,
  664280976241227210816,
  664280976241227210816,
  664280976241226686656,
  664280976241226686656,
  664280976241227210816,
  664280976241227210816,
  664280976103821811776,
  664280976103821811776,
  664280976241226686656,
  664280976241226686656,
  664280976103821287616,
  664280976103821287616,
  664280976241227210816,
  664280976241227210816,
  664280976241226686656,
  664280976241226686656,
  811818900033884659776,
  811818900033884659776,
  811818900033884135616,
  811818900033884135616,
  664280976241227210816,
  664280976241227210816,
  811818900033884659776,
  811818900033884659776,
  664280976241227210816,
  664280976241227210816,
  664280976103821811776,
  664280976103821811776,
  811818900033884659776,
  811818900033884659776,
  811818899896479260736,
  811818899896479260736,
  664280976241227210816,
  664280976241227210816,
  811818900033884659776,
  811818900033884659776,
  811818900033884659776,
  811818900033884659776,
  823350366879766814784,
  823350366879766814784,
  823350366879766806594,
  823350366879766806594,
  823350366879766814784,
  823350366879766814784,
  823350366879766806594,
  823350366879766806594,
  823350366879766814784,
  823350366879766814784,
  675812443087109365824,
  675812443087109365824,
  823350366879766814784,
  823350366879766814784,
  675812443087109365824,
  675812443087109365824,
  821045086820506542144,
  821045086820506542144,
  673507163027849093184,
  673507163027849093184,
  823350366879766814784,
  823350366879766814784,
  675812443087109365824,
  675812443087109365824,
  821045086820506542144,
  821045086820506542144,
  673507163027849093184,
  673507163027849093184,
  823350366879766814784,
  823350366879766814784,
  675812443087109365824,
  675812443087109365824,
  823350366879766814784,
  823350366879766814784,
  675812443087109365824,
  675812443087109365824,
  821045086820506542144,
  821045086820506542144,
  673507163027849093184,
  673507163027849093184,
  823350366879766814784,
  823350366879766814784,
  675812443087109365824,
  675812443087109365824,
  821045086820506542144,
  821045086820506542144,
  673507163027849093184,
  673507163027849093184,
  823350366879766814784,
  823350366879766814784,
  675812443087109365824,
  675812443087109365824,
  823350366879766814784,
  823350366879766814784,
  675812443087109365824,
  675812443087109365824,
  821045086820506542144,
  821045086820506542144,
  673507163027849093184,
  673507163027849093184,
  823350366879766814784,
  823350366879766814784,
  675812443087109365824,
  675812443087109365824,
  821045086820506542144,
  821045086820506542144,
  673507163027849093184,
  673507163027849093184,
  823350366879766814784,
  823350366879766814784,
  675812443087109365824,
  675812443087109365824,
  823350366879766814784,
  823350366879766814784,
  675812443087109365824,
  675812443087109365824,
  821045086820506542144,
  821045086820506542144,
  673507163027849093184,
  673507163027849093184,
  823350366879766814784,
  823350366879766814784,
  675812443087109365824,
  675812443087109365824,
  821045086820506542144,
  821045086820506542144,
  673507163027849093184,
  673507163027849093184,
  823350366879766814784,
  823350366879766814784,
  823350366742361415744,
  823350366742361415744,
  823350366879766814784,
  823350366879766814784,
  823350366742361415744,
  823350366742361415744,
  675812443087109365824,
  675812443087109365824,
  675812443087109357634,
  675812443087109357634,
  675812443087109365824,
  675812443087109365824,
  675812442949703966784,
  675812442949703966784,
  675812443087109365824,
  675812443087109365824,
  675812443087109357634,
  675812443087109357634,
  675812443087108841664,
  675812443087108841664,
  675812443087108833474,
  675812443087108833474,
  675812443087109365824,
  675812443087109365824,
  675812443087109357634,
  675812443087109357634,
  675812443087109365824,
  675812443087109365824,
  675812443087109357634,
  675812443087109357634,
  675812443087108841664,
  675812443087108841664,
  675812443087108833474,
  675812443087108833474,
  823350366879766814784,
  823350366879766814784,
  823350366879766814784,
  823350366879766814784,
  823350366879766814784,
  823350366879766814784,
  823350366879766814784,
  823350366879766814784,
  823350366879766814784,
  823350366879766814784,
  673507163027849093184,
  673507163027849093184,
  823350366879766814784,
  823350366879766814784,
  823350366879766806594,
  823350366879766806594,
  823350366879766814784,
  823350366879766814784,
  823350366879766806594,
  823350366879766806594,
  823350366879766814784,
  823350366879766814784,
  823350366879766806594,
  823350366879766806594,
  673507163027849093184,
  673507163027849093184,
  673507163027849084994,
  673507163027849084994,
  823350366879766814784,
  823350366879766814784,
  823350366879766290624,
  823350366879766290624,
  823350366879766814784,
  823350366879766814784,
  821045086820506017984,
  821045086820506017984,
  823350366879766814784,
  823350366879766814784,
  823350366879766290624,
  823350366879766290624,
  673507163027849093184,
  673507163027849093184,
  673507163027848569024,
  673507163027848569024,
  823350366879766814784,
  823350366879766814784,
  823350366879766806594,
  823350366879766806594,
  823350366879766290624,
  823350366879766290624,
  823350366879766282434,
  823350366879766282434,
  673507163027849093184,
  673507163027849093184,
  673507163027849084994,
  673507163027849084994,
  673507163027848569024,
  673507163027848569024,
  673507163027848560834,
  673507163027848560834,
  823350366879766814784,
  823350366879766814784,
  823350366879766814784,
  823350366879766814784,
  823350366879766814784,
  823350366879766814784,
  823350366879766814784,
  823350366879766814784,
  823350366879766814784,
  823350366879766814784,
  673507163027849093184,
  673507163027849093184,
  823350366879766814784,
  823350366879766814784,
  823350366879766290624,
  823350366879766290624,
  823350366879766814784,
  823350366879766814784,
  821045086820506017984,
  821045086820506017984,
  823350366879766814784,
  823350366879766814784,
  823350366879766290624,
  823350366879766290624,
  673507163027849093184,
  673507163027849093184,
  673507163027848569024,
  673507163027848569024,
  821045086820506542144,
  821045086820506542144,
  673507163027849093184,
  673507163027849093184,
  675812443087109365824,
  675812443087109365824,
  673507163027849093184,
  673507163027849093184,
  673507163027848569024,
  673507163027848569024,
  675812443087109365824,
  675812443087109365824,
  675812443087108841664,
  675812443087108841664,
  675812443087109365824,
  675812443087109365824,
  821045086820506542144,
  821045086820506542144,
  675812443087109365824,
  675812443087109365824,
  823350366879766814784,
  823350366879766814784,
  673507163027849093184,
  673507163027849093184,
  675812443087109365824,
  675812443087109365824,
  675812443087108841664,
  675812443087108841664,
  821045086820506542144,
  821045086820506542144,
  821045086820506017984,
  821045086820506017984,
  673507163027849093184,
  673507163027849093184,
  673507163027848569024,
  673507163027848569024,
  675812443087109365824,
  675812443087109365824,
  821045086820506542144,
  821045086820506542144,
  675812443087109365824,
  675812443087109365824,
  823350366879766814784,
  823350366879766814784,
  673507163027849093184,
  673507163027849093184,
  821045086820506542144,
  821045086820506542144,
  821045086683101143104,
  821045086683101143104,
  673507163027849093184,
  673507163027849093184,
  673507162890443694144,
  673507162890443694144,
  675812443087109365824,
  675812443087109365824,
  675812442949703966784,
  675812442949703966784,
  675812443087109365824,
  675812443087109365824,
  675812443087108841664,
  675812443087108841664,
  821045086820506542144,
  821045086820506542144,
  821045086820506017984,
  821045086820506017984,
  673507163027849093184,
  673507163027849093184,
  673507163027848569024,
  673507163027848569024,
  673507163027849093184,
  673507163027849093184,
  673507162890443694144,
  673507162890443694144,
  673507163027848569024,
  673507163027848569024,
  673507162890443169984,
  673507162890443169984,
  675812443087109365824,
  675812443087109365824,
  675812442949703966784,
  675812442949703966784,
  675812443087108841664,
  675812443087108841664,
  675812442949703442624,
  675812442949703442624,
  675812443087109365824,
  675812443087109365824,
  821045086820506542144,
  821045086820506542144,
  675812443087109365824,
  675812443087109365824,
  823350366879766814784,
  823350366879766814784,
  673507163027849093184,
  673507163027849093184,
  821045086820506542144,
  821045086820506542144,
  673507163027849093184,
  673507163027849093184,
  675812443087109365824,
  675812443087109365824,
  821045086820506542144,
  821045086820506542144,
  823350366879766814784,
  823350366879766814784,
  675812443087109365824,
  675812443087109365824,
  675812443087108841664,
  675812443087108841664,
  821045086820506542144,
  821045086820506542144,
  821045086820506017984,
  821045086820506017984,
  673507163027849093184,
  673507163027849093184,
  673507163027848569024,
  673507163027848569024,
  673507163027849093184,
  673507163027849093184,
  673507163027848569024,
  673507163027848569024,
  675812443087109365824,
  675812443087109365824]
def ccdq_t4_aabbaabb_anti1_cert_3 : List Nat := [675812443087108841664,
  675812443087108841664,
  821045086820506542144,
  821045086820506542144,
  821045086820506017984,
  821045086820506017984,
  823350366879766814784,
  823350366879766814784,
  823350366879766290624,
  823350366879766290624,
  675812443087109365824,
  675812443087109365824,
  821045086820506542144,
  821045086820506542144,
  675812443087109365824,
  675812443087109365824,
  823350366879766814784,
  823350366879766814784,
  673507163027849093184,
  673507163027849093184,
  675812443087109365824,
  675812443087109365824,
  675812443087108841664,
  675812443087108841664,
  821045086820506542144,
  821045086820506542144,
  821045086820506017984,
  821045086820506017984,
  673507163027849093184,
  673507163027849093184,
  673507163027848569024,
  673507163027848569024,
  823350366879766814784,
  823350366879766814784,
  823350366742361415744,
  823350366742361415744,
  823350366879766814784,
  823350366879766814784,
  823350366742361415744,
  823350366742361415744,
  821045086820506542144,
  821045086820506542144,
  821045086683101143104,
  821045086683101143104,
  823350366879766814784,
  823350366879766814784,
  823350366742361415744,
  823350366742361415744,
  823350366879766290624,
  823350366879766290624,
  823350366742360891584,
  823350366742360891584,
  821045086820506542144,
  821045086820506542144,
  821045086683101143104,
  821045086683101143104,
  821045086820506017984,
  821045086820506017984,
  821045086683100618944,
  821045086683100618944,
  675812443087109365824,
  675812443087109365824,
  675812443087109357634,
  675812443087109357634,
  675812443087109365824,
  675812443087109365824,
  675812443087109357634,
  675812443087109357634,
  823350366879766814784,
  823350366879766814784,
  821045086820506542144,
  821045086820506542144,
  823350366879766814784,
  823350366879766814784,
  673507163027849093184,
  673507163027849093184,
  823350366879766814784,
  823350366879766814784,
  823350366879766806594,
  823350366879766806594,
  673507163027849093184,
  673507163027849093184,
  673507163027849084994,
  673507163027849084994,
  823350366879766814784,
  823350366879766814784,
  821045086820506542144,
  821045086820506542144,
  823350366879766814784,
  823350366879766814784,
  673507163027849093184,
  673507163027849093184,
  673507163027849093184,
  673507163027849093184,
  675812443087109365824,
  675812443087109365824,
  675812443087109365824,
  675812443087109365824,
  821045086820506542144,
  821045086820506542144,
  673507163027849093184,
  673507163027849093184,
  675812443087109365824,
  675812443087109365824,
  821045086820506542144,
  821045086820506542144,
  673507163027849093184,
  673507163027849093184,
  673507163027849093184,
  673507163027849093184,
  673507162890443694144,
  673507162890443694144,
  675812443087109365824,
  675812443087109365824,
  675812442949703966784,
  675812442949703966784,
  675812443087109365824,
  675812443087109365824,
  821045086820506542144,
  821045086820506542144,
  673507163027849093184,
  673507163027849093184,
  673507163027849093184,
  673507163027849093184,
  675812443087109365824,
  675812443087109365824,
  821045086820506542144,
  821045086820506542144,
  823350366879766814784,
  823350366879766814784,
  675812443087109365824,
  675812443087109365824,
  821045086820506542144,
  821045086820506542144,
  673507163027849093184,
  673507163027849093184,
  823350366879766814784,
  823350366879766814784,
  823350366742361415744,
  823350366742361415744,
  821045086820506542144,
  821045086820506542144,
  821045086683101143104,
  821045086683101143104,
  821045086820506542144,
  821045086820506542144,
  821045086820506533954,
  821045086820506533954,
  673507163027849093184,
  673507163027849093184,
  673507163027849084994,
  673507163027849084994,
  821045086820506542144,
  821045086820506542144,
  821045086820506533954,
  821045086820506533954,
  673507163027849093184,
  673507163027849093184,
  673507163027849084994,
  673507163027849084994,
  821045086820506542144,
  821045086820506542144,
  821045086820506542144,
  821045086820506542144,
  673507163027849093184,
  673507163027849093184,
  673507163027849084994,
  673507163027849084994,
  821045086820506542144,
  821045086820506542144,
  821045086820506542144,
  821045086820506542144,
  821045086820506542144,
  821045086820506542144,
  821045086820506542144,
  821045086820506542144,
  821045086820506542144,
  821045086820506542144,
  821045086820506542144,
  821045086820506542144,
  821045086683101143104,
  821045086683101143104,
  821045086820506542144,
  821045086820506542144,
  821045086820506542144,
  821045086820506542144,
  821045086820506542144,
  821045086820506542144,
  821045086820506542144,
  821045086820506542144,
  821045086820506542144,
  821045086820506542144,
  2283003892727874,
  2283003892727874,
  2282866487328834,
  2282866487328834,
  2283003892727874,
  2283003892727874,
  2283003892736064,
  2283003892736064,
  162160790664380482,
  162160790664380482,
  162160790663856322,
  162160790663856322,
  162160790664380482,
  162160790664380482,
  162151996718841922,
  162151996718841922,
  9226217990700924994,
  9226217990700924994,
  9226217990700924994,
  9226217990700924994,
  11531498049961197634,
  11531498049961197634,
  9226217990700924994,
  9226217990700924994,
  9226217853295525954,
  9226217853295525954,
  11531498049961197634,
  11531498049961197634,
  11531497912555798594,
  11531497912555798594,
  9226217990700924994,
  9226217990700924994,
  11531498049961197634,
  11531498049961197634,
  9226217990700924994,
  9226217990700924994,
  164412590478065730,
  164412590478065730,
  164412453072666690,
  164412453072666690,
  164412590477541570,
  164412590477541570,
  164412453072142530,
  164412453072142530,
  164412590478065730,
  164412590478065730,
  164412590478073920,
  164412590478073920,
  164412590477541570,
  164412590477541570,
  164412590477549760,
  164412590477549760,
  164412590478065730,
  164412590478065730,
  164412590478073920,
  164412590478073920,
  164412590477541570,
  164412590477541570,
  164412590477549760,
  164412590477549760,
  164412590478065730,
  164412590478065730,
  164412453072666690,
  164412453072666690,
  164403796532527170,
  164403796532527170,
  164403659127128130,
  164403659127128130,
  164412590478065730,
  164412590478065730,
  164412453072666690,
  164412453072666690,
  164403796532527170,
  164403796532527170,
  164403659127128130,
  164403659127128130,
  164412590478065730,
  164412590478065730,
  164412590478073920,
  164412590478073920,
  164403796532527170,
  164403796532527170,
  164403796532535360,
  164403796532535360,
  811818900033884651586,
  811818900033884651586,
  811818900033884651586,
  811818900033884651586,
  664280976241227202626,
  664280976241227202626,
  811818900033884651586,
  811818900033884651586,
  811818900033884127426,
  811818900033884127426,
  664280976241227202626,
  664280976241227202626,
  664280976241226678466,
  664280976241226678466,
  811818900033884651586,
  811818900033884651586,
  664280976241227202626,
  664280976241227202626,
  811818900033884651586,
  811818900033884651586,
  823350366879766806594,
  823350366879766806594,
  823350366742361407554,
  823350366742361407554,
  675812443087109357634,
  675812443087109357634,
  675812442949703958594,
  675812442949703958594,
  823350366879766806594,
  823350366879766806594,
  823350366742361407554,
  823350366742361407554,
  823350366879766806594,
  823350366879766806594,
  823350366879766814784,
  823350366879766814784,
  821045086820506533954,
  821045086820506533954,
  821045086820506542144,
  821045086820506542144,
  673507163027849084994,
  673507163027849084994,
  673507163027849093184,
  673507163027849093184,
  821045086820506533954,
  821045086820506533954,
  821045086820506533954,
  821045086820506533954,
  823350366879766806594,
  823350366879766806594,
  673507163027849084994,
  673507163027849084994,
  675812443087109357634,
  675812443087109357634,
  821045086820506533954,
  821045086820506533954,
  821045086683101134914,
  821045086683101134914,
  823350366879766806594,
  823350366879766806594,
  823350366742361407554,
  823350366742361407554,
  673507163027849084994,
  673507163027849084994,
  673507162890443685954,
  673507162890443685954,
  675812443087109357634,
  675812443087109357634,
  675812442949703958594,
  675812442949703958594,
  821045086820506533954,
  821045086820506533954,
  823350366879766806594,
  823350366879766806594,
  673507163027849084994,
  673507163027849084994,
  675812443087109357634,
  675812443087109357634,
  821045086820506533954,
  821045086820506533954,
  821045086820506533954,
  821045086820506533954,
  821045086820506009794,
  821045086820506009794,
  673507163027849084994,
  673507163027849084994,
  673507163027848560834,
  673507163027848560834,
  675812443087109357634,
  675812443087109357634,
  675812443087108833474,
  675812443087108833474,
  675812443087109357634,
  675812443087109357634,
  675812442949703958594,
  675812442949703958594,
  675812443087108833474,
  675812443087108833474,
  675812442949703434434,
  675812442949703434434,
  823350366879766806594,
  823350366879766806594,
  823350366879766814784,
  823350366879766814784,
  823350366879766282434,
  823350366879766282434,
  823350366879766290624,
  823350366879766290624,
  823350366879766806594,
  823350366879766806594,
  823350366879766814784,
  823350366879766814784,
  823350366879766282434,
  823350366879766282434,
  823350366879766290624,
  823350366879766290624,
  673507163027849084994,
  673507163027849084994,
  673507163027849093184,
  673507163027849093184,
  673507163027848560834,
  673507163027848560834,
  673507163027848569024,
  673507163027848569024]
def ccdq_t4_aabbaabb_anti1_cert_4 : List Nat := [823350366879766806594,
  823350366879766806594,
  823350366879766814784,
  823350366879766814784,
  823350366879766282434,
  823350366879766282434,
  823350366879766290624,
  823350366879766290624,
  673507163027849084994,
  673507163027849084994,
  673507163027848560834,
  673507163027848560834,
  675812443087109357634,
  675812443087109357634,
  675812443087108833474,
  675812443087108833474,
  821045086820506533954,
  821045086820506533954,
  821045086820506009794,
  821045086820506009794,
  673507163027849084994,
  673507163027849084994,
  673507162890443685954,
  673507162890443685954,
  673507163027848560834,
  673507163027848560834,
  673507162890443161794,
  673507162890443161794,
  675812443087109357634,
  675812443087109357634,
  675812442949703958594,
  675812442949703958594,
  675812443087108833474,
  675812443087108833474,
  675812442949703434434,
  675812442949703434434,
  821045086820506533954,
  821045086820506533954,
  821045086683101134914,
  821045086683101134914,
  821045086820506009794,
  821045086820506009794,
  821045086683100610754,
  821045086683100610754,
  673507163027849084994,
  673507163027849084994,
  673507163027848560834,
  673507163027848560834,
  675812443087109357634,
  675812443087109357634,
  675812443087108833474,
  675812443087108833474,
  821045086820506533954,
  821045086820506533954,
  821045086820506009794,
  821045086820506009794,
  821045086820506533954,
  821045086820506533954,
  821045086820506009794,
  821045086820506009794,
  821045086820506533954,
  821045086820506533954,
  821045086820506009794,
  821045086820506009794,
  823350366879766806594,
  823350366879766806594,
  823350366879766282434,
  823350366879766282434,
  821045086820506533954,
  821045086820506533954,
  821045078026560995394,
  821045078026560995394,
  823350366879766806594,
  823350366879766806594,
  823350358085821268034,
  823350358085821268034,
  821045086820506533954,
  821045086820506533954,
  821045078026560995394,
  821045078026560995394,
  823350366879766806594,
  823350366879766806594,
  823350366742361407554,
  823350366742361407554,
  823350358085821268034,
  823350358085821268034,
  823350357948415868994,
  823350357948415868994,
  823350366879766806594,
  823350366879766806594,
  823350366742361407554,
  823350366742361407554,
  823350358085821268034,
  823350358085821268034,
  823350357948415868994,
  823350357948415868994,
  673507163027849084994,
  673507163027849084994,
  673507162890443685954,
  673507162890443685954,
  673507154233903546434,
  673507154233903546434,
  673507154096498147394,
  673507154096498147394,
  823350366879766806594,
  823350366879766806594,
  823350366742361407554,
  823350366742361407554,
  823350358085821268034,
  823350358085821268034,
  823350357948415868994,
  823350357948415868994,
  821045086820506533954,
  821045086820506533954,
  821045086820506542144,
  821045086820506542144,
  821045078026560995394,
  821045078026560995394,
  821045078026561003584,
  821045078026561003584,
  673507163027849084994,
  673507163027849084994,
  673507154233903546434,
  673507154233903546434,
  675812443087109357634,
  675812443087109357634,
  675812434293163819074,
  675812434293163819074,
  821045086820506533954,
  821045086820506533954,
  821045078026560995394,
  821045078026560995394,
  821045086820506533954,
  821045086820506533954,
  821045078026560995394,
  821045078026560995394,
  821045086820506533954,
  821045086820506533954,
  821045078026560995394,
  821045078026560995394,
  823350366879766806594,
  823350366879766806594,
  823350358085821268034,
  823350358085821268034,
  821045086820506533954,
  821045086820506533954,
  821045086683101134914,
  821045086683101134914,
  821045078026560995394,
  821045078026560995394,
  821045077889155596354,
  821045077889155596354,
  821045086820506533954,
  821045086820506533954,
  821045086683101134914,
  821045086683101134914,
  821045078026560995394,
  821045078026560995394,
  821045077889155596354,
  821045077889155596354,
  823350366879766806594,
  823350366879766806594,
  823350366742361407554,
  823350366742361407554,
  823350358085821268034,
  823350358085821268034,
  823350357948415868994,
  823350357948415868994,
  821045086820506533954,
  821045086820506533954,
  821045078026560995394,
  821045078026560995394,
  821045086820506533954,
  821045086820506533954,
  821045078026560995394,
  821045078026560995394,
  823350366879766806594,
  823350366879766806594,
  823350358085821268034,
  823350358085821268034,
  821045086820506533954,
  821045086820506533954,
  821045086820506533954,
  821045086820506533954,
  673507163027849084994,
  673507163027849084994,
  823350366879766806594,
  823350366879766806594,
  675812443087109357634,
  675812443087109357634,
  823350366879766806594,
  823350366879766806594,
  823350366742361407554,
  823350366742361407554,
  823350366879766806594,
  823350366879766806594,
  823350366742361407554,
  823350366742361407554,
  675812443087109357634,
  675812443087109357634,
  675812442949703958594,
  675812442949703958594,
  823350366879766806594,
  823350366879766806594,
  823350366879766814784,
  823350366879766814784,
  823350366879766806594,
  823350366879766806594,
  823350366879766814784,
  823350366879766814784,
  675812443087109357634,
  675812443087109357634,
  675812443087109365824,
  675812443087109365824,
  821045086820506533954,
  821045086820506533954,
  821045086820506542144,
  821045086820506542144,
  673507163027849084994,
  673507163027849084994,
  673507163027849093184,
  673507163027849093184,
  823350366879766806594,
  823350366879766806594,
  823350366879766814784,
  823350366879766814784,
  821045086820506533954,
  821045086820506533954,
  821045086820506009794,
  821045086820506009794,
  673507163027849084994,
  673507163027849084994,
  673507163027848560834,
  673507163027848560834,
  823350366879766806594,
  823350366879766806594,
  823350366879766282434,
  823350366879766282434,
  675812443087109357634,
  675812443087109357634,
  675812443087108833474,
  675812443087108833474,
  823350366879766806594,
  823350366879766806594,
  823350366742361407554,
  823350366742361407554,
  823350366879766282434,
  823350366879766282434,
  823350366742360883394,
  823350366742360883394,
  823350366879766806594,
  823350366879766806594,
  823350366742361407554,
  823350366742361407554,
  823350366879766282434,
  823350366879766282434,
  823350366742360883394,
  823350366742360883394,
  675812443087109357634,
  675812443087109357634,
  675812442949703958594,
  675812442949703958594,
  675812443087108833474,
  675812443087108833474,
  675812442949703434434,
  675812442949703434434,
  821045086820506533954,
  821045086820506533954,
  821045086820506542144,
  821045086820506542144,
  821045086820506009794,
  821045086820506009794,
  821045086820506017984,
  821045086820506017984,
  673507163027849084994,
  673507163027849084994,
  673507163027849093184,
  673507163027849093184,
  673507163027848560834,
  673507163027848560834,
  673507163027848569024,
  673507163027848569024,
  823350366879766806594,
  823350366879766806594,
  823350366879766814784,
  823350366879766814784,
  823350366879766282434,
  823350366879766282434,
  823350366879766290624,
  823350366879766290624,
  821045086820506533954,
  821045086820506533954,
  673507163027849084994,
  673507163027849084994,
  823350366879766806594,
  823350366879766806594,
  675812443087109357634,
  675812443087109357634,
  821045086820506533954,
  821045086820506533954,
  823350366879766806594,
  823350366879766806594,
  823350366742361407554,
  823350366742361407554,
  823350366879766806594,
  823350366879766806594,
  823350366742361407554,
  823350366742361407554,
  675812443087109357634,
  675812443087109357634,
  675812442949703958594,
  675812442949703958594,
  821045086820506533954,
  821045086820506533954,
  821045086683101134914,
  821045086683101134914,
  673507163027849084994,
  673507163027849084994,
  673507162890443685954,
  673507162890443685954,
  823350366879766806594,
  823350366879766806594,
  823350366742361407554,
  823350366742361407554,
  821045086820506533954,
  821045086820506533954,
  821045086820506542144,
  821045086820506542144,
  673507163027849084994,
  673507163027849084994,
  673507163027849093184,
  673507163027849093184,
  823350366879766806594,
  823350366879766806594,
  823350366879766814784,
  823350366879766814784,
  11531498049961197634,
  11531498049961197634,
  11531498049961205824,
  11531498049961205824,
  11531498049961197634,
  11531498049961197634,
  11531498049961205824,
  11531498049961205824,
  11531498049961197634,
  11531498049961197634,
  11531498049961197634,
  11531498049961197634,
  9226217990700924994,
  9226217990700924994,
  11531498049961197634,
  11531498049961197634,
  9226217990700924994,
  9226217990700924994,
  11531498049961197634,
  11531498049961197634,
  11531498049961197634,
  11531498049961197634,
  9226217990700924994,
  9226217990700924994,
  11531498049961197634,
  11531498049961197634,
  9226217990700924994,
  9226217990700924994,
  11531498049961197634,
  11531498049961197634,
  11531498049961197634,
  11531498049961197634,
  9226217990700924994,
  9226217990700924994,
  11531498049961197634,
  11531498049961197634,
  9226217990700924994,
  9226217990700924994,
  11531498049961197634,
  11531498049961197634,
  11531498049961197634,
  11531498049961197634,
  9226217990700924994,
  9226217990700924994,
  11531498049961197634,
  11531498049961197634,
  9226217990700924994,
  9226217990700924994,
  11531498049961197634,
  11531498049961197634,
  11531497912555798594,
  11531497912555798594,
  11531498049961197634,
  11531498049961197634,
  11531497912555798594,
  11531497912555798594,
  164412590478065730,
  164412590478065730,
  164412590478073920,
  164412590478073920,
  164412590478065730,
  164412590478065730,
  164412453072666690,
  164412453072666690]
def ccdq_t4_aabbaabb_anti1_cert_5 : List Nat := [164412590478065730,
  164412590478065730,
  164412590478073920,
  164412590478073920,
  164412590477541570,
  164412590477541570,
  164412590477549760,
  164412590477549760,
  164412590478065730,
  164412590478065730,
  164412590478073920,
  164412590478073920,
  164412590478065730,
  164412590478065730,
  164412590478073920,
  164412590478073920,
  164412590477541570,
  164412590477541570,
  164412590477549760,
  164412590477549760,
  164412590478065730,
  164412590478065730,
  164412590478065730,
  164412590478065730,
  164412590478065730,
  164412590478065730,
  164412590478065730,
  164412590478065730,
  164412590478073920,
  164412590478073920,
  164412590478065730,
  164412590478065730,
  164412590478073920,
  164412590478073920,
  164412590478065730,
  164412590478065730,
  164412590477541570,
  164412590477541570,
  164412590478065730,
  164412590478065730,
  164412590477541570,
  164412590477541570,
  164412590478065730,
  164412590478065730,
  164412590478073920,
  164412590478073920,
  164412590477541570,
  164412590477541570,
  164412590477549760,
  164412590477549760,
  164412590478065730,
  164412590478065730,
  164412590478065730,
  164412590478065730,
  164412590478065730,
  164412590478065730,
  164412590478065730,
  164412590478065730,
  164412590477541570,
  164412590477541570,
  164412590478065730,
  164412590478065730,
  164412590477541570,
  164412590477541570,
  164412590478065730,
  164412590478065730,
  164412590478073920,
  164412590478073920,
  164412590478065730,
  164412590478065730,
  164412453072666690,
  164412453072666690,
  164412590478065730,
  164412590478065730,
  164412590478073920,
  164412590478073920,
  164412590478065730,
  164412590478065730,
  164412590478065730,
  164412590478065730,
  164412590478065730,
  164412590478065730,
  164412590478065730,
  164412590478065730,
  164412590478073920,
  164412590478073920,
  164412590478065730,
  164412590478065730,
  164412590478073920,
  164412590478073920,
  164412590478065730,
  164412590478065730,
  164412590478065730,
  164412590478065730,
  164412590478065730,
  164412590478065730,
  164412590478065730,
  164412590478065730,
  164412590478073920,
  164412590478073920,
  164412590477541570,
  164412590477541570,
  164412590477549760,
  164412590477549760,
  164412590478065730,
  164412590478065730,
  164412453072666690,
  164412453072666690,
  164412590477541570,
  164412590477541570,
  164412453072142530,
  164412453072142530,
  164412590478065730,
  164412590478065730,
  164412590478073920,
  164412590478073920,
  164403796532527170,
  164403796532527170,
  164403796532535360,
  164403796532535360,
  164412590478065730,
  164412590478065730,
  164412590478073920,
  164412590478073920,
  164412590477541570,
  164412590477541570,
  164412590477549760,
  164412590477549760,
  164412590478065730,
  164412590478065730,
  164412590478073920,
  164412590478073920,
  164403796532527170,
  164403796532527170,
  164403796532535360,
  164403796532535360,
  164412590478065730,
  164412590478065730,
  164412590477541570,
  164412590477541570,
  164412590478065730,
  164412590478065730,
  164412590478073920,
  164412590478073920,
  164412590477541570,
  164412590477541570,
  164412590477549760,
  164412590477549760,
  164412590478065730,
  164412590478065730,
  164403796532527170,
  164403796532527170,
  164412590478065730,
  164412590478065730,
  164412590477541570,
  164412590477541570,
  164412590478065730,
  164412590478065730,
  164403796532527170,
  164403796532527170,
  164412590478065730,
  164412590478065730,
  164412590478073920,
  164412590478073920,
  164412590477541570,
  164412590477541570,
  164412590477549760,
  164412590477549760,
  164412590478065730,
  164412590478065730,
  164412453072666690,
  164412453072666690,
  164412590477541570,
  164412590477541570,
  164412453072142530,
  164412453072142530,
  164412590478065730,
  164412590478065730,
  164412590478073920,
  164412590478073920,
  164412590477541570,
  164412590477541570,
  164412590477549760,
  164412590477549760,
  164412590478065730,
  164412590478065730,
  164412590477541570,
  164412590477541570,
  164412590478065730,
  164412590478065730,
  164412590478073920,
  164412590478073920,
  164412590477541570,
  164412590477541570,
  164412590477549760,
  164412590477549760,
  164412590478065730,
  164412590478065730,
  164412590477541570,
  164412590477541570,
  811818900033884651586,
  811818900033884651586,
  664280976241227202626,
  664280976241227202626,
  811818900033884651586,
  811818900033884651586,
  811818899896479252546,
  811818899896479252546,
  664280976241227202626,
  664280976241227202626,
  664280976103821803586,
  664280976103821803586,
  811818900033884651586,
  811818900033884651586,
  664280976241227202626,
  664280976241227202626,
  811818900033884651586,
  811818900033884651586,
  664280976241227202626,
  664280976241227202626,
  664280976241226678466,
  664280976241226678466,
  664280976241227202626,
  664280976241227202626,
  664280976103821803586,
  664280976103821803586,
  664280976241226678466,
  664280976241226678466,
  664280976103821279426,
  664280976103821279426,
  664280976241227202626,
  664280976241227202626,
  664280976241226678466,
  664280976241226678466,
  811818900033884651586,
  811818900033884651586,
  811818900033884127426,
  811818900033884127426,
  664280976241227202626,
  664280976241227202626,
  811818900033884651586,
  811818900033884651586,
  664280976241227202626,
  664280976241227202626,
  664280976103821803586,
  664280976103821803586,
  811818900033884651586,
  811818900033884651586,
  811818899896479252546,
  811818899896479252546,
  664280976241227202626,
  664280976241227202626,
  811818900033884651586,
  811818900033884651586,
  811818900033884651586,
  811818900033884651586,
  823350366879766806594,
  823350366879766806594,
  823350366879766814784,
  823350366879766814784,
  823350366879766806594,
  823350366879766806594,
  823350366879766814784,
  823350366879766814784,
  823350366879766806594,
  823350366879766806594,
  675812443087109357634,
  675812443087109357634,
  823350366879766806594,
  823350366879766806594,
  675812443087109357634,
  675812443087109357634,
  821045086820506533954,
  821045086820506533954,
  673507163027849084994,
  673507163027849084994,
  823350366879766806594,
  823350366879766806594,
  675812443087109357634,
  675812443087109357634,
  821045086820506533954,
  821045086820506533954,
  673507163027849084994,
  673507163027849084994,
  823350366879766806594,
  823350366879766806594,
  675812443087109357634,
  675812443087109357634,
  823350366879766806594,
  823350366879766806594,
  675812443087109357634,
  675812443087109357634,
  821045086820506533954,
  821045086820506533954,
  673507163027849084994,
  673507163027849084994,
  823350366879766806594,
  823350366879766806594,
  675812443087109357634,
  675812443087109357634,
  821045086820506533954,
  821045086820506533954,
  673507163027849084994,
  673507163027849084994,
  823350366879766806594,
  823350366879766806594,
  675812443087109357634,
  675812443087109357634,
  823350366879766806594,
  823350366879766806594,
  675812443087109357634,
  675812443087109357634,
  821045086820506533954,
  821045086820506533954,
  673507163027849084994,
  673507163027849084994,
  823350366879766806594,
  823350366879766806594,
  675812443087109357634,
  675812443087109357634,
  821045086820506533954,
  821045086820506533954,
  673507163027849084994,
  673507163027849084994,
  823350366879766806594,
  823350366879766806594,
  675812443087109357634,
  675812443087109357634,
  823350366879766806594,
  823350366879766806594,
  675812443087109357634,
  675812443087109357634,
  821045086820506533954,
  821045086820506533954,
  673507163027849084994,
  673507163027849084994,
  823350366879766806594,
  823350366879766806594,
  675812443087109357634,
  675812443087109357634,
  821045086820506533954,
  821045086820506533954,
  673507163027849084994,
  673507163027849084994,
  823350366879766806594,
  823350366879766806594,
  823350366742361407554,
  823350366742361407554,
  823350366879766806594,
  823350366879766806594,
  823350366742361407554,
  823350366742361407554,
  675812443087109357634,
  675812443087109357634,
  675812443087109365824,
  675812443087109365824,
  675812443087109357634,
  675812443087109357634,
  675812442949703958594,
  675812442949703958594,
  675812443087109357634,
  675812443087109357634,
  675812443087109365824,
  675812443087109365824,
  675812443087108833474,
  675812443087108833474,
  675812443087108841664,
  675812443087108841664,
  675812443087109357634,
  675812443087109357634,
  675812443087109365824,
  675812443087109365824,
  675812443087109357634,
  675812443087109357634,
  675812443087109365824,
  675812443087109365824,
  675812443087108833474,
  675812443087108833474,
  675812443087108841664,
  675812443087108841664,
  823350366879766806594,
  823350366879766806594,
  823350366879766806594,
  823350366879766806594,
  823350366879766806594,
  823350366879766806594,
  823350366879766806594,
  823350366879766806594,
  823350366879766806594,
  823350366879766806594,
  673507163027849084994,
  673507163027849084994,
  823350366879766806594,
  823350366879766806594,
  823350366879766814784,
  823350366879766814784,
  823350366879766806594,
  823350366879766806594,
  823350366879766814784,
  823350366879766814784]
def ccdq_t4_aabbaabb_anti1_cert_6 : List Nat := [823350366879766806594,
  823350366879766806594,
  823350366879766814784,
  823350366879766814784,
  673507163027849084994,
  673507163027849084994,
  673507163027849093184,
  673507163027849093184,
  823350366879766806594,
  823350366879766806594,
  823350366879766282434,
  823350366879766282434,
  823350366879766806594,
  823350366879766806594,
  821045086820506009794,
  821045086820506009794,
  823350366879766806594,
  823350366879766806594,
  823350366879766282434,
  823350366879766282434,
  673507163027849084994,
  673507163027849084994,
  673507163027848560834,
  673507163027848560834,
  823350366879766806594,
  823350366879766806594,
  823350366879766814784,
  823350366879766814784,
  823350366879766282434,
  823350366879766282434,
  823350366879766290624,
  823350366879766290624,
  673507163027849084994,
  673507163027849084994,
  673507163027849093184,
  673507163027849093184,
  673507163027848560834,
  673507163027848560834,
  673507163027848569024,
  673507163027848569024,
  823350366879766806594,
  823350366879766806594,
  823350366879766806594,
  823350366879766806594,
  823350366879766806594,
  823350366879766806594,
  823350366879766806594,
  823350366879766806594,
  823350366879766806594,
  823350366879766806594,
  673507163027849084994,
  673507163027849084994,
  823350366879766806594,
  823350366879766806594,
  823350366879766282434,
  823350366879766282434,
  823350366879766806594,
  823350366879766806594,
  821045086820506009794,
  821045086820506009794,
  823350366879766806594,
  823350366879766806594,
  823350366879766282434,
  823350366879766282434,
  673507163027849084994,
  673507163027849084994,
  673507163027848560834,
  673507163027848560834,
  821045086820506533954,
  821045086820506533954,
  673507163027849084994,
  673507163027849084994,
  675812443087109357634,
  675812443087109357634,
  673507163027849084994,
  673507163027849084994,
  673507163027848560834,
  673507163027848560834,
  675812443087109357634,
  675812443087109357634,
  675812443087108833474,
  675812443087108833474,
  675812443087109357634,
  675812443087109357634,
  821045086820506533954,
  821045086820506533954,
  675812443087109357634,
  675812443087109357634,
  823350366879766806594,
  823350366879766806594,
  673507163027849084994,
  673507163027849084994,
  675812443087109357634,
  675812443087109357634,
  675812443087108833474,
  675812443087108833474,
  821045086820506533954,
  821045086820506533954,
  821045086820506009794,
  821045086820506009794,
  673507163027849084994,
  673507163027849084994,
  673507163027848560834,
  673507163027848560834,
  675812443087109357634,
  675812443087109357634,
  821045086820506533954,
  821045086820506533954,
  675812443087109357634,
  675812443087109357634,
  823350366879766806594,
  823350366879766806594,
  673507163027849084994,
  673507163027849084994,
  821045086820506533954,
  821045086820506533954,
  821045086683101134914,
  821045086683101134914,
  673507163027849084994,
  673507163027849084994,
  673507162890443685954,
  673507162890443685954,
  675812443087109357634,
  675812443087109357634,
  675812442949703958594,
  675812442949703958594,
  675812443087109357634,
  675812443087109357634,
  675812443087108833474,
  675812443087108833474,
  821045086820506533954,
  821045086820506533954,
  821045086820506009794,
  821045086820506009794,
  673507163027849084994,
  673507163027849084994,
  673507163027848560834,
  673507163027848560834,
  673507163027849084994,
  673507163027849084994,
  673507162890443685954,
  673507162890443685954,
  673507163027848560834,
  673507163027848560834,
  673507162890443161794,
  673507162890443161794,
  675812443087109357634,
  675812443087109357634,
  675812442949703958594,
  675812442949703958594,
  675812443087108833474,
  675812443087108833474,
  675812442949703434434,
  675812442949703434434,
  675812443087109357634,
  675812443087109357634,
  821045086820506533954,
  821045086820506533954,
  675812443087109357634,
  675812443087109357634,
  823350366879766806594,
  823350366879766806594,
  673507163027849084994,
  673507163027849084994,
  821045086820506533954,
  821045086820506533954,
  673507163027849084994,
  673507163027849084994,
  675812443087109357634,
  675812443087109357634,
  821045086820506533954,
  821045086820506533954,
  823350366879766806594,
  823350366879766806594,
  675812443087109357634,
  675812443087109357634,
  675812443087108833474,
  675812443087108833474,
  821045086820506533954,
  821045086820506533954,
  821045086820506009794,
  821045086820506009794,
  673507163027849084994,
  673507163027849084994,
  673507163027848560834,
  673507163027848560834,
  673507163027849084994,
  673507163027849084994,
  673507163027848560834,
  673507163027848560834,
  675812443087109357634,
  675812443087109357634,
  675812443087108833474,
  675812443087108833474,
  821045086820506533954,
  821045086820506533954,
  821045086820506009794,
  821045086820506009794,
  823350366879766806594,
  823350366879766806594,
  823350366879766282434,
  823350366879766282434,
  675812443087109357634,
  675812443087109357634,
  821045086820506533954,
  821045086820506533954,
  675812443087109357634,
  675812443087109357634,
  823350366879766806594,
  823350366879766806594,
  673507163027849084994,
  673507163027849084994,
  675812443087109357634,
  675812443087109357634,
  675812443087108833474,
  675812443087108833474,
  821045086820506533954,
  821045086820506533954,
  821045086820506009794,
  821045086820506009794,
  673507163027849084994,
  673507163027849084994,
  673507163027848560834,
  673507163027848560834,
  823350366879766806594,
  823350366879766806594,
  823350366742361407554,
  823350366742361407554,
  823350366879766806594,
  823350366879766806594,
  823350366742361407554,
  823350366742361407554,
  821045086820506533954,
  821045086820506533954,
  821045086683101134914,
  821045086683101134914,
  823350366879766806594,
  823350366879766806594,
  823350366742361407554,
  823350366742361407554,
  823350366879766282434,
  823350366879766282434,
  823350366742360883394,
  823350366742360883394,
  821045086820506533954,
  821045086820506533954,
  821045086683101134914,
  821045086683101134914,
  821045086820506009794,
  821045086820506009794,
  821045086683100610754,
  821045086683100610754,
  675812443087109357634,
  675812443087109357634,
  675812443087109365824,
  675812443087109365824,
  675812443087109357634,
  675812443087109357634,
  675812443087109365824,
  675812443087109365824,
  823350366879766806594,
  823350366879766806594,
  821045086820506533954,
  821045086820506533954,
  823350366879766806594,
  823350366879766806594,
  673507163027849084994,
  673507163027849084994,
  823350366879766806594,
  823350366879766806594,
  823350366879766814784,
  823350366879766814784,
  673507163027849084994,
  673507163027849084994,
  673507163027849093184,
  673507163027849093184,
  823350366879766806594,
  823350366879766806594,
  821045086820506533954,
  821045086820506533954,
  823350366879766806594,
  823350366879766806594,
  673507163027849084994,
  673507163027849084994,
  673507163027849084994,
  673507163027849084994,
  675812443087109357634,
  675812443087109357634,
  675812443087109357634,
  675812443087109357634,
  821045086820506533954,
  821045086820506533954,
  673507163027849084994,
  673507163027849084994,
  675812443087109357634,
  675812443087109357634,
  821045086820506533954,
  821045086820506533954,
  673507163027849084994,
  673507163027849084994,
  673507163027849084994,
  673507163027849084994,
  673507162890443685954,
  673507162890443685954,
  675812443087109357634,
  675812443087109357634,
  675812442949703958594,
  675812442949703958594,
  675812443087109357634,
  675812443087109357634,
  821045086820506533954,
  821045086820506533954,
  673507163027849084994,
  673507163027849084994,
  673507163027849084994,
  673507163027849084994,
  675812443087109357634,
  675812443087109357634,
  821045086820506533954,
  821045086820506533954,
  823350366879766806594,
  823350366879766806594,
  675812443087109357634,
  675812443087109357634,
  821045086820506533954,
  821045086820506533954,
  673507163027849084994,
  673507163027849084994,
  823350366879766806594,
  823350366879766806594,
  823350366742361407554,
  823350366742361407554,
  821045086820506533954,
  821045086820506533954,
  821045086683101134914,
  821045086683101134914,
  821045086820506533954,
  821045086820506533954,
  821045086820506542144,
  821045086820506542144,
  673507163027849084994,
  673507163027849084994,
  673507163027849093184,
  673507163027849093184,
  821045086820506533954,
  821045086820506533954,
  821045086820506542144,
  821045086820506542144,
  673507163027849084994,
  673507163027849084994,
  673507163027849093184,
  673507163027849093184,
  821045086820506533954,
  821045086820506533954,
  821045086820506533954,
  821045086820506533954,
  673507163027849084994,
  673507163027849084994,
  673507163027849093184,
  673507163027849093184,
  821045086820506533954,
  821045086820506533954,
  821045086820506533954,
  821045086820506533954,
  821045086820506533954,
  821045086820506533954,
  821045086820506533954,
  821045086820506533954,
  821045086820506533954,
  821045086820506533954,
  821045086820506533954,
  821045086820506533954,
  821045086683101134914,
  821045086683101134914,
  821045086820506533954,
  821045086820506533954,
  821045086820506533954,
  821045086820506533954,
  821045086820506533954,
  821045086820506533954,
  821045086820506533954,
  821045086820506533954,
  821045086820506533954,
  821045086820506533954]

/-- Check ccdq_t4_aabbaabb_anti1. Sign of aabbaabb under [0, 1, 2, 3, 5, 4, 6, 7]. -/
theorem ccdq_t4_aabbaabb_anti1 : isZero kinds [aᵥ, bᵥ, cᵥ, dᵥ, iₒ, jₒ, kₒ, lₒ] 100000000000000
    (ccdq_t4_aabbaabb ++ (Prog.outs [0, 1, 2, 3, 5, 4, 6, 7] (ccdq_t4_aabbaabb)))
    (ccdq_t4_aabbaabb_anti1_cert_0 ++ (ccdq_t4_aabbaabb_anti1_cert_1 ++ (ccdq_t4_aabbaabb_anti1_cert_2 ++ (ccdq_t4_aabbaabb_anti1_cert_3 ++ (ccdq_t4_aabbaabb_anti1_cert_4 ++ (ccdq_t4_aabbaabb_anti1_cert_5 ++ (ccdq_t4_aabbaabb_anti1_cert_6))))))) = true := by decide +kernel

end Verif.Cert
