import Verif.Ein.FlipProg
import Verif.Gen.SiCcdqT4_2

/-! Written by `/verif/tools/gen.py`. Checks of einsum programs. -/

set_option maxRecDepth 100000

namespace Verif.Cert

open Verif.Ein Verif.Ein.N


open Verif.Gen

def ccdq_t4_aabbaabb_flip_cert_0 : List Nat := [2283003892736064,
  2283003892736064,
  2282866487337024,
  2282866487337024,
  2283003892736064,
  2283003892736064,
  2283003892727874,
  2283003892727874,
  162160790664388672,
  162160790664388672,
  162160790663864512,
  162160790663864512,
  162160790664388672,
  162160790664388672,
  162151996718850112,
  162151996718850112,
  9226217990700933184,
  9226217990700933184,
  11531498049961205824,
  11531498049961205824,
  9226217990700933184,
  9226217990700933184,
  11531498049961205824,
  11531498049961205824,
  11531497912555806784,
  11531497912555806784,
  9226217990700933184,
  9226217990700933184,
  9226217853295534144,
  9226217853295534144,
  11531498049961205824,
  11531498049961205824,
  9226217990700933184,
  9226217990700933184,
  9226217990700933184,
  9226217990700933184,
  164412590478073920,
  164412590478073920,
  164412453072674880,
  164412453072674880,
  164412590477549760,
  164412590477549760,
  164412453072150720,
  164412453072150720,
  164412590478073920,
  164412590478073920,
  164412590478065730,
  164412590478065730,
  164412590477549760,
  164412590477549760,
  164412590477541570,
  164412590477541570,
  164412590478073920,
  164412590478073920,
  164412590478065730,
  164412590478065730,
  164412590477549760,
  164412590477549760,
  164412590477541570,
  164412590477541570,
  164412590478073920,
  164412590478073920,
  164412453072674880,
  164412453072674880,
  164403796532535360,
  164403796532535360,
  164403659127136320,
  164403659127136320,
  164412590478073920,
  164412590478073920,
  164412453072674880,
  164412453072674880,
  164403796532535360,
  164403796532535360,
  164403659127136320,
  164403659127136320,
  164412590478073920,
  164412590478073920,
  164412590478065730,
  164412590478065730,
  164403796532535360,
  164403796532535360,
  164403796532527170,
  164403796532527170,
  811818900033884659776,
  811818900033884659776,
  664280976241227210816,
  664280976241227210816,
  811818900033884659776,
  811818900033884659776,
  664280976241227210816,
  664280976241227210816,
  664280976241226686656,
  664280976241226686656,
  811818900033884659776,
  811818900033884659776,
  811818900033884135616,
  811818900033884135616,
  664280976241227210816,
  664280976241227210816,
  811818900033884659776,
  811818900033884659776,
  811818900033884659776,
  811818900033884659776,
  673507163027849093184,
  673507163027849093184,
  673507162890443694144,
  673507162890443694144,
  821045086820506542144,
  821045086820506542144,
  821045086683101143104,
  821045086683101143104,
  823350366879766814784,
  823350366879766814784,
  823350366742361415744,
  823350366742361415744,
  823350366879766814784,
  823350366879766814784,
  823350366879766806594,
  823350366879766806594,
  675812443087109365824,
  675812443087109365824,
  675812443087109357634,
  675812443087109357634,
  823350366879766814784,
  823350366879766814784,
  823350366879766806594,
  823350366879766806594,
  821045086820506542144,
  821045086820506542144,
  675812443087109365824,
  675812443087109365824,
  673507163027849093184,
  673507163027849093184,
  823350366879766814784,
  823350366879766814784,
  821045086820506542144,
  821045086820506542144,
  675812443087109365824,
  675812443087109365824,
  675812442949703966784,
  675812442949703966784,
  673507163027849093184,
  673507163027849093184,
  673507162890443694144,
  673507162890443694144,
  823350366879766814784,
  823350366879766814784,
  823350366742361415744,
  823350366742361415744,
  821045086820506542144,
  821045086820506542144,
  821045086683101143104,
  821045086683101143104,
  675812443087109365824,
  675812443087109365824,
  673507163027849093184,
  673507163027849093184,
  823350366879766814784,
  823350366879766814784,
  821045086820506542144,
  821045086820506542144,
  821045086820506542144,
  821045086820506542144,
  821045086820506542144,
  821045086820506542144,
  821045086820506017984,
  821045086820506017984,
  823350366879766814784,
  823350366879766814784,
  823350366879766290624,
  823350366879766290624,
  821045086820506542144,
  821045086820506542144,
  821045086820506017984,
  821045086820506017984,
  821045086820506542144,
  821045086820506542144,
  821045086683101143104,
  821045086683101143104,
  821045086820506017984,
  821045086820506017984,
  821045086683100618944,
  821045086683100618944,
  823350366879766814784,
  823350366879766814784,
  823350366879766806594,
  823350366879766806594,
  823350366879766290624,
  823350366879766290624,
  823350366879766282434,
  823350366879766282434,
  673507163027849093184,
  673507163027849093184,
  673507163027849084994,
  673507163027849084994,
  673507163027848569024,
  673507163027848569024,
  673507163027848560834,
  673507163027848560834,
  823350366879766814784,
  823350366879766814784,
  823350366879766806594,
  823350366879766806594,
  823350366879766290624,
  823350366879766290624,
  823350366879766282434,
  823350366879766282434,
  823350366879766814784,
  823350366879766814784,
  823350366879766806594,
  823350366879766806594,
  823350366879766290624,
  823350366879766290624,
  823350366879766282434,
  823350366879766282434,
  823350366879766814784,
  823350366879766814784,
  823350366879766290624,
  823350366879766290624,
  821045086820506542144,
  821045086820506542144,
  821045086820506017984,
  821045086820506017984,
  821045086820506542144,
  821045086820506542144,
  821045086820506017984,
  821045086820506017984,
  823350366879766814784,
  823350366879766814784,
  823350366742361415744,
  823350366742361415744,
  823350366879766290624,
  823350366879766290624,
  823350366742360891584,
  823350366742360891584,
  821045086820506542144,
  821045086820506542144,
  821045086683101143104,
  821045086683101143104,
  821045086820506017984,
  821045086820506017984,
  821045086683100618944,
  821045086683100618944,
  821045086820506542144,
  821045086820506542144,
  821045086683101143104,
  821045086683101143104,
  821045086820506017984,
  821045086820506017984,
  821045086683100618944,
  821045086683100618944,
  823350366879766814784,
  823350366879766814784,
  823350366879766290624,
  823350366879766290624,
  821045086820506542144,
  821045086820506542144,
  821045086820506017984,
  821045086820506017984,
  821045086820506542144,
  821045086820506542144,
  821045086820506017984,
  821045086820506017984,
  821045086820506542144,
  821045086820506542144,
  821045086820506017984,
  821045086820506017984,
  675812443087109365824,
  675812443087109365824,
  675812443087108841664,
  675812443087108841664,
  673507163027849093184,
  673507163027849093184,
  673507163027848569024,
  673507163027848569024,
  675812443087109365824,
  675812443087109365824,
  675812434293163827264,
  675812434293163827264,
  673507163027849093184,
  673507163027849093184,
  673507154233903554624,
  673507154233903554624,
  821045086820506542144,
  821045086820506542144,
  821045078026561003584,
  821045078026561003584,
  823350366879766814784,
  823350366879766814784,
  823350366742361415744,
  823350366742361415744,
  823350358085821276224,
  823350358085821276224,
  823350357948415877184,
  823350357948415877184,
  673507163027849093184,
  673507163027849093184,
  673507162890443694144,
  673507162890443694144,
  673507154233903554624,
  673507154233903554624,
  673507154096498155584,
  673507154096498155584,
  823350366879766814784,
  823350366879766814784,
  823350366742361415744,
  823350366742361415744,
  823350358085821276224,
  823350358085821276224,
  823350357948415877184,
  823350357948415877184,
  823350366879766814784,
  823350366879766814784,
  823350366742361415744,
  823350366742361415744,
  823350358085821276224,
  823350358085821276224,
  823350357948415877184,
  823350357948415877184,
  675812443087109365824,
  675812443087109365824,
  675812443087109357634,
  675812443087109357634,
  675812434293163827264,
  675812434293163827264,
  675812434293163819074,
  675812434293163819074,
  823350366879766814784,
  823350366879766814784,
  823350358085821276224,
  823350358085821276224,
  821045086820506542144,
  821045086820506542144,
  821045078026561003584,
  821045078026561003584,
  821045086820506542144,
  821045086820506542144,
  821045078026561003584,
  821045078026561003584,
  821045086820506542144,
  821045086820506542144,
  821045078026561003584,
  821045078026561003584,
  675812443087109365824,
  675812443087109365824,
  675812434293163827264,
  675812434293163827264,
  673507163027849093184,
  673507163027849093184,
  673507154233903554624,
  673507154233903554624,
  821045086820506542144,
  821045086820506542144,
  821045086683101143104,
  821045086683101143104,
  821045078026561003584,
  821045078026561003584,
  821045077889155604544,
  821045077889155604544,
  675812443087109365824,
  675812443087109365824,
  675812442949703966784,
  675812442949703966784,
  675812434293163827264,
  675812434293163827264,
  675812434155758428224,
  675812434155758428224,
  673507163027849093184,
  673507163027849093184,
  673507162890443694144,
  673507162890443694144,
  673507154233903554624,
  673507154233903554624,
  673507154096498155584,
  673507154096498155584,
  821045086820506542144,
  821045086820506542144,
  821045078026561003584,
  821045078026561003584,
  675812443087109365824,
  675812443087109365824,
  675812434293163827264,
  675812434293163827264,
  673507163027849093184,
  673507163027849093184,
  673507154233903554624,
  673507154233903554624,
  821045086820506542144,
  821045086820506542144,
  675812443087109365824,
  675812443087109365824,
  823350366879766814784,
  823350366879766814784,
  673507163027849093184,
  673507163027849093184,
  821045086820506542144,
  821045086820506542144,
  823350366879766814784,
  823350366879766814784]
def ccdq_t4_aabbaabb_flip_cert_1 : List Nat := [823350366742361415744,
  823350366742361415744,
  673507163027849093184,
  673507163027849093184,
  673507162890443694144,
  673507162890443694144,
  821045086820506542144,
  821045086820506542144,
  821045086683101143104,
  821045086683101143104,
  823350366879766814784,
  823350366879766814784,
  823350366879766806594,
  823350366879766806594,
  673507163027849093184,
  673507163027849093184,
  673507163027849084994,
  673507163027849084994,
  821045086820506542144,
  821045086820506542144,
  821045086820506533954,
  821045086820506533954,
  675812443087109365824,
  675812443087109365824,
  675812443087109357634,
  675812443087109357634,
  823350366879766814784,
  823350366879766814784,
  823350366879766806594,
  823350366879766806594,
  823350366879766814784,
  823350366879766814784,
  823350366879766806594,
  823350366879766806594,
  675812443087109365824,
  675812443087109365824,
  675812443087108841664,
  675812443087108841664,
  823350366879766814784,
  823350366879766814784,
  823350366879766290624,
  823350366879766290624,
  673507163027849093184,
  673507163027849093184,
  673507163027848569024,
  673507163027848569024,
  821045086820506542144,
  821045086820506542144,
  821045086820506017984,
  821045086820506017984,
  823350366879766814784,
  823350366879766814784,
  823350366742361415744,
  823350366742361415744,
  823350366879766290624,
  823350366879766290624,
  823350366742360891584,
  823350366742360891584,
  673507163027849093184,
  673507163027849093184,
  673507162890443694144,
  673507162890443694144,
  673507163027848569024,
  673507163027848569024,
  673507162890443169984,
  673507162890443169984,
  821045086820506542144,
  821045086820506542144,
  821045086683101143104,
  821045086683101143104,
  821045086820506017984,
  821045086820506017984,
  821045086683100618944,
  821045086683100618944,
  675812443087109365824,
  675812443087109365824,
  675812443087109357634,
  675812443087109357634,
  675812443087108841664,
  675812443087108841664,
  675812443087108833474,
  675812443087108833474,
  823350366879766814784,
  823350366879766814784,
  823350366879766806594,
  823350366879766806594,
  823350366879766290624,
  823350366879766290624,
  823350366879766282434,
  823350366879766282434,
  823350366879766814784,
  823350366879766814784,
  823350366879766806594,
  823350366879766806594,
  823350366879766290624,
  823350366879766290624,
  823350366879766282434,
  823350366879766282434,
  675812443087109365824,
  675812443087109365824,
  823350366879766814784,
  823350366879766814784,
  673507163027849093184,
  673507163027849093184,
  821045086820506542144,
  821045086820506542144,
  821045086820506542144,
  821045086820506542144,
  823350366879766814784,
  823350366879766814784,
  823350366742361415744,
  823350366742361415744,
  673507163027849093184,
  673507163027849093184,
  673507162890443694144,
  673507162890443694144,
  821045086820506542144,
  821045086820506542144,
  821045086683101143104,
  821045086683101143104,
  675812443087109365824,
  675812443087109365824,
  675812442949703966784,
  675812442949703966784,
  823350366879766814784,
  823350366879766814784,
  823350366742361415744,
  823350366742361415744,
  823350366879766814784,
  823350366879766814784,
  823350366742361415744,
  823350366742361415744,
  675812443087109365824,
  675812443087109365824,
  675812443087109357634,
  675812443087109357634,
  823350366879766814784,
  823350366879766814784,
  823350366879766806594,
  823350366879766806594,
  823350366879766814784,
  823350366879766814784,
  823350366879766806594,
  823350366879766806594,
  11531498049961205824,
  11531498049961205824,
  11531498049961197634,
  11531498049961197634,
  9226217990700933184,
  9226217990700933184,
  9226217990700924994,
  9226217990700924994,
  9226217990700933184,
  9226217990700933184,
  9226217990700933184,
  9226217990700933184,
  11531498049961205824,
  11531498049961205824,
  9226217990700933184,
  9226217990700933184,
  11531498049961205824,
  11531498049961205824,
  9226217990700933184,
  9226217990700933184,
  9226217990700933184,
  9226217990700933184,
  11531498049961205824,
  11531498049961205824,
  9226217990700933184,
  9226217990700933184,
  11531498049961205824,
  11531498049961205824,
  9226217990700933184,
  9226217990700933184,
  9226217990700933184,
  9226217990700933184,
  11531498049961205824,
  11531498049961205824,
  9226217990700933184,
  9226217990700933184,
  11531498049961205824,
  11531498049961205824,
  9226217990700933184,
  9226217990700933184,
  9226217990700933184,
  9226217990700933184,
  11531498049961205824,
  11531498049961205824,
  9226217990700933184,
  9226217990700933184,
  11531498049961205824,
  11531498049961205824,
  11531498049961205824,
  11531498049961205824,
  11531497912555806784,
  11531497912555806784,
  9226217990700933184,
  9226217990700933184,
  9226217853295534144,
  9226217853295534144,
  164412590478073920,
  164412590478073920,
  164412590478065730,
  164412590478065730,
  164412590478073920,
  164412590478073920,
  164412453072674880,
  164412453072674880,
  164412590478073920,
  164412590478073920,
  164412590478065730,
  164412590478065730,
  164412590477549760,
  164412590477549760,
  164412590477541570,
  164412590477541570,
  164412590478073920,
  164412590478073920,
  164412590478065730,
  164412590478065730,
  164412590478073920,
  164412590478073920,
  164412590478065730,
  164412590478065730,
  164412590477549760,
  164412590477549760,
  164412590477541570,
  164412590477541570,
  164412590478073920,
  164412590478073920,
  164412590478073920,
  164412590478073920,
  164412590478073920,
  164412590478073920,
  164412590478073920,
  164412590478073920,
  164412590478065730,
  164412590478065730,
  164412590478073920,
  164412590478073920,
  164412590478065730,
  164412590478065730,
  164412590478073920,
  164412590478073920,
  164412590477549760,
  164412590477549760,
  164412590478073920,
  164412590478073920,
  164412590477549760,
  164412590477549760,
  164412590478073920,
  164412590478073920,
  164412590478065730,
  164412590478065730,
  164412590477549760,
  164412590477549760,
  164412590477541570,
  164412590477541570,
  164412590478073920,
  164412590478073920,
  164412590478073920,
  164412590478073920,
  164412590478073920,
  164412590478073920,
  164412590478073920,
  164412590478073920,
  164412590477549760,
  164412590477549760,
  164412590478073920,
  164412590478073920,
  164412590477549760,
  164412590477549760,
  164412590478073920,
  164412590478073920,
  164412590478065730,
  164412590478065730,
  164412590478073920,
  164412590478073920,
  164412453072674880,
  164412453072674880,
  164412590478073920,
  164412590478073920,
  164412590478065730,
  164412590478065730,
  164412590478073920,
  164412590478073920,
  164412590478073920,
  164412590478073920,
  164412590478073920,
  164412590478073920,
  164412590478073920,
  164412590478073920,
  164412590478065730,
  164412590478065730,
  164412590478073920,
  164412590478073920,
  164412590478065730,
  164412590478065730,
  164412590478073920,
  164412590478073920,
  164412590478073920,
  164412590478073920,
  164412590478073920,
  164412590478073920,
  164412590478073920,
  164412590478073920,
  164412590478065730,
  164412590478065730,
  164412590477549760,
  164412590477549760,
  164412590477541570,
  164412590477541570,
  164412590478073920,
  164412590478073920,
  164412453072674880,
  164412453072674880,
  164412590477549760,
  164412590477549760,
  164412453072150720,
  164412453072150720,
  164412590478073920,
  164412590478073920,
  164412590478065730,
  164412590478065730,
  164403796532535360,
  164403796532535360,
  164403796532527170,
  164403796532527170,
  164412590478073920,
  164412590478073920,
  164412590478065730,
  164412590478065730,
  164412590477549760,
  164412590477549760,
  164412590477541570,
  164412590477541570,
  164412590478073920,
  164412590478073920,
  164412590478065730,
  164412590478065730,
  164403796532535360,
  164403796532535360,
  164403796532527170,
  164403796532527170,
  164412590478073920,
  164412590478073920,
  164412590477549760,
  164412590477549760,
  164412590478073920,
  164412590478073920,
  164412590478065730,
  164412590478065730,
  164412590477549760,
  164412590477549760,
  164412590477541570,
  164412590477541570,
  164412590478073920,
  164412590478073920,
  164403796532535360,
  164403796532535360,
  164412590478073920,
  164412590478073920,
  164412590477549760,
  164412590477549760,
  164412590478073920,
  164412590478073920,
  164403796532535360,
  164403796532535360,
  164412590478073920,
  164412590478073920,
  164412590478065730,
  164412590478065730,
  164412590477549760,
  164412590477549760,
  164412590477541570,
  164412590477541570,
  164412590478073920,
  164412590478073920,
  164412453072674880,
  164412453072674880,
  164412590477549760,
  164412590477549760,
  164412453072150720,
  164412453072150720,
  164412590478073920,
  164412590478073920,
  164412590478065730,
  164412590478065730,
  164412590477549760,
  164412590477549760,
  164412590477541570,
  164412590477541570,
  164412590478073920,
  164412590478073920,
  164412590477549760,
  164412590477549760,
  164412590478073920,
  164412590478073920,
  164412590478065730,
  164412590478065730]
def ccdq_t4_aabbaabb_flip_cert_2 : List Nat := [164412590477549760,
  164412590477549760,
  164412590477541570,
  164412590477541570,
  164412590478073920,
  164412590478073920,
  164412590477549760,
  164412590477549760,
  811818900033884659776,
  811818900033884659776,
  811818900033884659776,
  811818900033884659776,
  811818900033884659776,
  811818900033884659776,
  811818899896479260736,
  811818899896479260736,
  811818900033884659776,
  811818900033884659776,
  811818899896479260736,
  811818899896479260736,
  811818900033884659776,
  811818900033884659776,
  811818900033884659776,
  811818900033884659776,
  664280976241227210816,
  664280976241227210816,
  811818900033884659776,
  811818900033884659776,
  811818900033884135616,
  811818900033884135616,
  811818900033884659776,
  811818900033884659776,
  811818899896479260736,
  811818899896479260736,
  811818900033884135616,
  811818900033884135616,
  811818899896478736576,
  811818899896478736576,
  811818900033884659776,
  811818900033884659776,
  811818900033884135616,
  811818900033884135616,
  664280976241227210816,
  664280976241227210816,
  664280976241226686656,
  664280976241226686656,
  811818900033884659776,
  811818900033884659776,
  811818900033884659776,
  811818900033884659776,
  811818900033884659776,
  811818900033884659776,
  811818899896479260736,
  811818899896479260736,
  811818900033884659776,
  811818900033884659776,
  811818899896479260736,
  811818899896479260736,
  811818900033884659776,
  811818900033884659776,
  811818900033884659776,
  811818900033884659776,
  664280976241227210816,
  664280976241227210816,
  823350366879766814784,
  823350366879766814784,
  823350366879766806594,
  823350366879766806594,
  821045086820506542144,
  821045086820506542144,
  821045086820506533954,
  821045086820506533954,
  673507163027849093184,
  673507163027849093184,
  821045086820506542144,
  821045086820506542144,
  673507163027849093184,
  673507163027849093184,
  821045086820506542144,
  821045086820506542144,
  675812443087109365824,
  675812443087109365824,
  823350366879766814784,
  823350366879766814784,
  673507163027849093184,
  673507163027849093184,
  821045086820506542144,
  821045086820506542144,
  675812443087109365824,
  675812443087109365824,
  823350366879766814784,
  823350366879766814784,
  673507163027849093184,
  673507163027849093184,
  821045086820506542144,
  821045086820506542144,
  673507163027849093184,
  673507163027849093184,
  821045086820506542144,
  821045086820506542144,
  675812443087109365824,
  675812443087109365824,
  823350366879766814784,
  823350366879766814784,
  673507163027849093184,
  673507163027849093184,
  821045086820506542144,
  821045086820506542144,
  675812443087109365824,
  675812443087109365824,
  823350366879766814784,
  823350366879766814784,
  673507163027849093184,
  673507163027849093184,
  821045086820506542144,
  821045086820506542144,
  673507163027849093184,
  673507163027849093184,
  821045086820506542144,
  821045086820506542144,
  675812443087109365824,
  675812443087109365824,
  823350366879766814784,
  823350366879766814784,
  673507163027849093184,
  673507163027849093184,
  821045086820506542144,
  821045086820506542144,
  675812443087109365824,
  675812443087109365824,
  823350366879766814784,
  823350366879766814784,
  673507163027849093184,
  673507163027849093184,
  821045086820506542144,
  821045086820506542144,
  673507163027849093184,
  673507163027849093184,
  821045086820506542144,
  821045086820506542144,
  675812443087109365824,
  675812443087109365824,
  823350366879766814784,
  823350366879766814784,
  673507163027849093184,
  673507163027849093184,
  821045086820506542144,
  821045086820506542144,
  675812443087109365824,
  675812443087109365824,
  823350366879766814784,
  823350366879766814784,
  823350366879766814784,
  823350366879766814784,
  823350366742361415744,
  823350366742361415744,
  821045086820506542144,
  821045086820506542144,
  821045086683101143104,
  821045086683101143104,
  821045086820506542144,
  821045086820506542144,
  821045086820506533954,
  821045086820506533954,
  821045086820506542144,
  821045086820506542144,
  821045086683101143104,
  821045086683101143104,
  821045086820506542144,
  821045086820506542144,
  821045086820506533954,
  821045086820506533954,
  821045086820506017984,
  821045086820506017984,
  821045086820506009794,
  821045086820506009794,
  821045086820506542144,
  821045086820506542144,
  821045086820506533954,
  821045086820506533954,
  821045086820506542144,
  821045086820506542144,
  821045086820506533954,
  821045086820506533954,
  821045086820506017984,
  821045086820506017984,
  821045086820506009794,
  821045086820506009794,
  673507163027849093184,
  673507163027849093184,
  675812443087109365824,
  675812443087109365824,
  673507163027849093184,
  673507163027849093184,
  821045086820506542144,
  821045086820506542144,
  673507163027849093184,
  673507163027849093184,
  823350366879766814784,
  823350366879766814784,
  673507163027849093184,
  673507163027849093184,
  673507163027849084994,
  673507163027849084994,
  821045086820506542144,
  821045086820506542144,
  821045086820506533954,
  821045086820506533954,
  673507163027849093184,
  673507163027849093184,
  673507163027849084994,
  673507163027849084994,
  823350366879766814784,
  823350366879766814784,
  823350366879766806594,
  823350366879766806594,
  673507163027849093184,
  673507163027849093184,
  673507163027848569024,
  673507163027848569024,
  675812443087109365824,
  675812443087109365824,
  675812443087108841664,
  675812443087108841664,
  673507163027849093184,
  673507163027849093184,
  673507163027848569024,
  673507163027848569024,
  823350366879766814784,
  823350366879766814784,
  823350366879766290624,
  823350366879766290624,
  673507163027849093184,
  673507163027849093184,
  673507163027849084994,
  673507163027849084994,
  673507163027848569024,
  673507163027848569024,
  673507163027848560834,
  673507163027848560834,
  823350366879766814784,
  823350366879766814784,
  823350366879766806594,
  823350366879766806594,
  823350366879766290624,
  823350366879766290624,
  823350366879766282434,
  823350366879766282434,
  673507163027849093184,
  673507163027849093184,
  675812443087109365824,
  675812443087109365824,
  673507163027849093184,
  673507163027849093184,
  821045086820506542144,
  821045086820506542144,
  673507163027849093184,
  673507163027849093184,
  823350366879766814784,
  823350366879766814784,
  673507163027849093184,
  673507163027849093184,
  673507163027848569024,
  673507163027848569024,
  675812443087109365824,
  675812443087109365824,
  675812443087108841664,
  675812443087108841664,
  673507163027849093184,
  673507163027849093184,
  673507163027848569024,
  673507163027848569024,
  823350366879766814784,
  823350366879766814784,
  823350366879766290624,
  823350366879766290624,
  821045086820506542144,
  821045086820506542144,
  823350366879766814784,
  823350366879766814784,
  821045086820506542144,
  821045086820506542144,
  823350366879766814784,
  823350366879766814784,
  823350366879766290624,
  823350366879766290624,
  821045086820506542144,
  821045086820506542144,
  821045086820506017984,
  821045086820506017984,
  821045086820506542144,
  821045086820506542144,
  675812443087109365824,
  675812443087109365824,
  821045086820506542144,
  821045086820506542144,
  821045086820506542144,
  821045086820506542144,
  823350366879766814784,
  823350366879766814784,
  821045086820506542144,
  821045086820506542144,
  821045086820506017984,
  821045086820506017984,
  675812443087109365824,
  675812443087109365824,
  675812443087108841664,
  675812443087108841664,
  823350366879766814784,
  823350366879766814784,
  823350366879766290624,
  823350366879766290624,
  821045086820506542144,
  821045086820506542144,
  675812443087109365824,
  675812443087109365824,
  821045086820506542144,
  821045086820506542144,
  821045086820506542144,
  821045086820506542144,
  823350366879766814784,
  823350366879766814784,
  821045086820506542144,
  821045086820506542144,
  821045086683101143104,
  821045086683101143104,
  823350366879766814784,
  823350366879766814784,
  823350366742361415744,
  823350366742361415744,
  821045086820506542144,
  821045086820506542144,
  821045086683101143104,
  821045086683101143104,
  821045086820506542144,
  821045086820506542144,
  821045086820506017984,
  821045086820506017984,
  675812443087109365824,
  675812443087109365824,
  675812443087108841664,
  675812443087108841664,
  823350366879766814784,
  823350366879766814784,
  823350366879766290624,
  823350366879766290624,
  823350366879766814784,
  823350366879766814784,
  823350366742361415744,
  823350366742361415744,
  823350366879766290624,
  823350366879766290624,
  823350366742360891584,
  823350366742360891584,
  821045086820506542144,
  821045086820506542144,
  821045086683101143104,
  821045086683101143104,
  821045086820506017984,
  821045086820506017984,
  821045086683100618944,
  821045086683100618944,
  821045086820506542144,
  821045086820506542144,
  675812443087109365824,
  675812443087109365824,
  821045086820506542144,
  821045086820506542144,
  821045086820506542144,
  821045086820506542144,
  823350366879766814784,
  823350366879766814784,
  821045086820506542144,
  821045086820506542144,
  823350366879766814784,
  823350366879766814784,
  821045086820506542144,
  821045086820506542144,
  675812443087109365824,
  675812443087109365824,
  673507163027849093184,
  673507163027849093184,
  821045086820506542144,
  821045086820506542144,
  821045086820506017984,
  821045086820506017984,
  675812443087109365824,
  675812443087109365824,
  675812443087108841664,
  675812443087108841664,
  823350366879766814784,
  823350366879766814784,
  823350366879766290624,
  823350366879766290624,
  823350366879766814784,
  823350366879766814784,
  823350366879766290624,
  823350366879766290624,
  821045086820506542144,
  821045086820506542144]
def ccdq_t4_aabbaabb_flip_cert_3 : List Nat := [821045086820506017984,
  821045086820506017984,
  675812443087109365824,
  675812443087109365824,
  675812443087108841664,
  675812443087108841664,
  673507163027849093184,
  673507163027849093184,
  673507163027848569024,
  673507163027848569024,
  821045086820506542144,
  821045086820506542144,
  675812443087109365824,
  675812443087109365824,
  821045086820506542144,
  821045086820506542144,
  821045086820506542144,
  821045086820506542144,
  823350366879766814784,
  823350366879766814784,
  821045086820506542144,
  821045086820506542144,
  821045086820506017984,
  821045086820506017984,
  675812443087109365824,
  675812443087109365824,
  675812443087108841664,
  675812443087108841664,
  823350366879766814784,
  823350366879766814784,
  823350366879766290624,
  823350366879766290624,
  673507163027849093184,
  673507163027849093184,
  673507162890443694144,
  673507162890443694144,
  675812443087109365824,
  675812443087109365824,
  675812442949703966784,
  675812442949703966784,
  675812443087109365824,
  675812443087109365824,
  675812442949703966784,
  675812442949703966784,
  673507163027849093184,
  673507163027849093184,
  673507162890443694144,
  673507162890443694144,
  673507163027848569024,
  673507163027848569024,
  673507162890443169984,
  673507162890443169984,
  675812443087109365824,
  675812443087109365824,
  675812442949703966784,
  675812442949703966784,
  675812443087108841664,
  675812443087108841664,
  675812442949703442624,
  675812442949703442624,
  821045086820506542144,
  821045086820506542144,
  821045086820506533954,
  821045086820506533954,
  821045086820506542144,
  821045086820506542144,
  821045086820506533954,
  821045086820506533954,
  673507163027849093184,
  673507163027849093184,
  675812443087109365824,
  675812443087109365824,
  673507163027849093184,
  673507163027849093184,
  823350366879766814784,
  823350366879766814784,
  673507163027849093184,
  673507163027849093184,
  673507163027849084994,
  673507163027849084994,
  823350366879766814784,
  823350366879766814784,
  823350366879766806594,
  823350366879766806594,
  673507163027849093184,
  673507163027849093184,
  675812443087109365824,
  675812443087109365824,
  673507163027849093184,
  673507163027849093184,
  823350366879766814784,
  823350366879766814784,
  823350366879766814784,
  823350366879766814784,
  821045086820506542144,
  821045086820506542144,
  821045086820506542144,
  821045086820506542144,
  675812443087109365824,
  675812443087109365824,
  823350366879766814784,
  823350366879766814784,
  821045086820506542144,
  821045086820506542144,
  675812443087109365824,
  675812443087109365824,
  823350366879766814784,
  823350366879766814784,
  823350366879766814784,
  823350366879766814784,
  823350366742361415744,
  823350366742361415744,
  821045086820506542144,
  821045086820506542144,
  821045086683101143104,
  821045086683101143104,
  821045086820506542144,
  821045086820506542144,
  675812443087109365824,
  675812443087109365824,
  823350366879766814784,
  823350366879766814784,
  823350366879766814784,
  823350366879766814784,
  821045086820506542144,
  821045086820506542144,
  675812443087109365824,
  675812443087109365824,
  673507163027849093184,
  673507163027849093184,
  821045086820506542144,
  821045086820506542144,
  675812443087109365824,
  675812443087109365824,
  823350366879766814784,
  823350366879766814784,
  675812443087109365824,
  675812443087109365824,
  675812442949703966784,
  675812442949703966784,
  675812443087109365824,
  675812443087109365824,
  675812442949703966784,
  675812442949703966784,
  823350366879766814784,
  823350366879766814784,
  823350366879766806594,
  823350366879766806594,
  823350366879766814784,
  823350366879766814784,
  823350366879766806594,
  823350366879766806594,
  823350366879766814784,
  823350366879766814784,
  823350366879766806594,
  823350366879766806594,
  823350366879766814784,
  823350366879766814784,
  823350366879766806594,
  823350366879766806594,
  675812443087109365824,
  675812443087109365824,
  675812443087109365824,
  675812443087109365824,
  823350366879766814784,
  823350366879766814784,
  823350366879766806594,
  823350366879766806594,
  821045086820506542144,
  821045086820506542144,
  823350366879766814784,
  823350366879766814784,
  675812443087109365824,
  675812443087109365824,
  823350366879766814784,
  823350366879766814784,
  675812443087109365824,
  675812443087109365824,
  821045086820506542144,
  821045086820506542144,
  821045086683101143104,
  821045086683101143104,
  823350366879766814784,
  823350366879766814784,
  675812443087109365824,
  675812443087109365824,
  821045086820506542144,
  821045086820506542144,
  823350366879766814784,
  823350366879766814784,
  675812443087109365824,
  675812443087109365824,
  2265132467773764,
  2265132467773764,
  2264995062374724,
  2265132467765574,
  2265132467773764,
  2265132467773764,
  2265132467765574,
  2264995062374724,
  162142919239426372,
  162142919239426372,
  162142919238902212,
  162134125293887812,
  162142919239426372,
  162142919239426372,
  162134125293887812,
  162142919238902212,
  9226200119275970884,
  9226200119275970884,
  9226200119275970884,
  9226200119275970884,
  11531480178536243524,
  11531480178536243524,
  9226200119275970884,
  9226200119275970884,
  9226199981870571844,
  9226200119275962694,
  11531480178536243524,
  11531480178536243524,
  11531480041130844484,
  11531480178536235334,
  9226200119275970884,
  9226200119275970884,
  11531480178536243524,
  11531480178536243524,
  9226200119275970884,
  9226200119275970884,
  164394719053111620,
  164394719053111620,
  164394581647712580,
  164394719053103430,
  164394719052587460,
  164385925107573060,
  164394581647188420,
  164385925107564870,
  164394719053111620,
  164394719053111620,
  164394719053103430,
  164394581647712580,
  164394719052587460,
  164385925107573060,
  164394719052579270,
  164385787702174020,
  164394719053111620,
  164394719053111620,
  164394719053103430,
  164394581647712580,
  164394719052587460,
  164385925107573060,
  164394719052579270,
  164385787702174020,
  164394719053111620,
  164394719053111620,
  164394581647712580,
  164394719053103430,
  164385925107573060,
  164394719052587460,
  164385787702174020,
  164394719052579270,
  164394719053111620,
  164394719053111620,
  164394581647712580,
  164394719053103430,
  164385925107573060,
  164394719052587460,
  164385787702174020,
  164394719052579270,
  164394719053111620,
  164394719053111620,
  164394719053103430,
  164394581647712580,
  164385925107573060,
  164394719052587460,
  164385925107564870,
  164394581647188420,
  811818882162459697476,
  811818882162459697476,
  811818882162459697476,
  811818882162459697476,
  664280958369802248516,
  664280958369802248516,
  811818882162459697476,
  811818882162459697476,
  811818882162459173316,
  811818873368514158916,
  664280958369802248516,
  664280958369802248516,
  664280958369801724356,
  664280949575856709956,
  811818882162459697476,
  811818882162459697476,
  664280958369802248516,
  664280958369802248516,
  811818882162459697476,
  811818882162459697476,
  823350349008341852484,
  823350349008341852484,
  823350348870936453444,
  823350349008341844294,
  675812425215684403524,
  675812425215684403524,
  675812425078279004484,
  675812425215684395334,
  823350349008341852484,
  823350349008341852484,
  823350348870936453444,
  823350349008341844294,
  823350349008341852484,
  823350349008341852484,
  823350349008341844294,
  823350348870936453444,
  821045068949081579844,
  821045068949081579844,
  821045068949081571654,
  821045068811676180804,
  673507145156424130884,
  673507145156424130884,
  673507145156424122694,
  673507145019018731844,
  821045068949081579844,
  821045068949081579844,
  821045068949081579844,
  821045068949081579844,
  823350349008341852484,
  823350349008341852484,
  673507145156424130884,
  673507145156424130884,
  675812425215684403524,
  675812425215684403524,
  821045068949081579844,
  821045068949081579844,
  821045068811676180804,
  821045068949081571654,
  823350349008341852484,
  823350349008341852484,
  823350348870936453444,
  823350349008341844294,
  673507145156424130884,
  673507145156424130884,
  673507145019018731844,
  673507145156424122694,
  675812425215684403524,
  675812425215684403524,
  675812425078279004484,
  675812425215684395334,
  821045068949081579844,
  821045068949081579844,
  823350349008341852484,
  823350349008341852484,
  673507145156424130884,
  673507145156424130884,
  675812425215684403524,
  675812425215684403524,
  821045068949081579844,
  821045068949081579844,
  821045068949081579844,
  821045068949081579844,
  821045068949081055684,
  821045060155136041284,
  673507145156424130884,
  673507145156424130884,
  673507145156423606724,
  673507136362478592324,
  675812425215684403524,
  675812425215684403524,
  675812425215683879364,
  675812416421738864964,
  675812425215684403524,
  675812425215684403524,
  675812425078279004484,
  675812425215684395334,
  675812425215683879364,
  675812416421738864964,
  675812425078278480324,
  675812416421738856774,
  823350349008341852484,
  823350349008341852484,
  823350349008341844294,
  823350348870936453444,
  823350349008341328324,
  823350340214396313924,
  823350349008341320134,
  823350340076990914884,
  823350349008341852484,
  823350349008341852484,
  823350349008341844294,
  823350348870936453444,
  823350349008341328324,
  823350340214396313924,
  823350349008341320134,
  823350340076990914884,
  673507145156424130884,
  673507145156424130884,
  673507145156424122694,
  673507145019018731844,
  673507145156423606724,
  673507136362478592324,
  673507145156423598534,
  673507136225073193284]
def ccdq_t4_aabbaabb_flip_cert_4 : List Nat := [823350349008341852484,
  823350349008341852484,
  823350349008341844294,
  823350348870936453444,
  823350349008341328324,
  823350340214396313924,
  823350349008341320134,
  823350340076990914884,
  673507145156424130884,
  673507145156424130884,
  673507145156423606724,
  673507136362478592324,
  675812425215684403524,
  675812425215684403524,
  675812425215683879364,
  675812416421738864964,
  821045068949081579844,
  821045068949081579844,
  821045068949081055684,
  821045060155136041284,
  673507145156424130884,
  673507145156424130884,
  673507145019018731844,
  673507145156424122694,
  673507145156423606724,
  673507136362478592324,
  673507145019018207684,
  673507136362478584134,
  675812425215684403524,
  675812425215684403524,
  675812425078279004484,
  675812425215684395334,
  675812425215683879364,
  675812416421738864964,
  675812425078278480324,
  675812416421738856774,
  821045068949081579844,
  821045068949081579844,
  821045068811676180804,
  821045068949081571654,
  821045068949081055684,
  821045060155136041284,
  821045068811675656644,
  821045060155136033094,
  673507145156424130884,
  673507145156424130884,
  673507145156423606724,
  673507136362478592324,
  675812425215684403524,
  675812425215684403524,
  675812425215683879364,
  675812416421738864964,
  821045068949081579844,
  821045068949081579844,
  821045068949081055684,
  821045060155136041284,
  821045068949081579844,
  821045068949081579844,
  821045068949081055684,
  821045060155136041284,
  821045068949081579844,
  821045068949081579844,
  821045068949081055684,
  821045060155136041284,
  823350349008341852484,
  823350349008341852484,
  823350349008341328324,
  823350340214396313924,
  821045068949081579844,
  821045068949081579844,
  821045060155136041284,
  821045068949081055684,
  823350349008341852484,
  823350349008341852484,
  823350340214396313924,
  823350349008341328324,
  821045068949081579844,
  821045068949081579844,
  821045060155136041284,
  821045068949081055684,
  823350349008341852484,
  823350349008341852484,
  823350348870936453444,
  823350349008341844294,
  823350340214396313924,
  823350349008341328324,
  823350340076990914884,
  823350349008341320134,
  823350349008341852484,
  823350349008341852484,
  823350348870936453444,
  823350349008341844294,
  823350340214396313924,
  823350349008341328324,
  823350340076990914884,
  823350349008341320134,
  673507145156424130884,
  673507145156424130884,
  673507145019018731844,
  673507145156424122694,
  673507136362478592324,
  673507145156423606724,
  673507136225073193284,
  673507145156423598534,
  823350349008341852484,
  823350349008341852484,
  823350348870936453444,
  823350349008341844294,
  823350340214396313924,
  823350349008341328324,
  823350340076990914884,
  823350349008341320134,
  821045068949081579844,
  821045068949081579844,
  821045068949081571654,
  821045068811676180804,
  821045060155136041284,
  821045068949081055684,
  821045060155136033094,
  821045068811675656644,
  673507145156424130884,
  673507145156424130884,
  673507136362478592324,
  673507145156423606724,
  675812425215684403524,
  675812425215684403524,
  675812416421738864964,
  675812425215683879364,
  821045068949081579844,
  821045068949081579844,
  821045060155136041284,
  821045068949081055684,
  821045068949081579844,
  821045068949081579844,
  821045060155136041284,
  821045068949081055684,
  821045068949081579844,
  821045068949081579844,
  821045060155136041284,
  821045068949081055684,
  823350349008341852484,
  823350349008341852484,
  823350340214396313924,
  823350349008341328324,
  821045068949081579844,
  821045068949081579844,
  821045068811676180804,
  821045068949081571654,
  821045060155136041284,
  821045068949081055684,
  821045060017730642244,
  821045068949081047494,
  821045068949081579844,
  821045068949081579844,
  821045068811676180804,
  821045068949081571654,
  821045060155136041284,
  821045068949081055684,
  821045060017730642244,
  821045068949081047494,
  823350349008341852484,
  823350349008341852484,
  823350348870936453444,
  823350349008341844294,
  823350340214396313924,
  823350349008341328324,
  823350340076990914884,
  823350349008341320134,
  821045068949081579844,
  821045068949081579844,
  821045060155136041284,
  821045068949081055684,
  821045068949081579844,
  821045068949081579844,
  821045060155136041284,
  821045068949081055684,
  823350349008341852484,
  823350349008341852484,
  823350340214396313924,
  823350349008341328324,
  821045068949081579844,
  821045068949081579844,
  821045068949081579844,
  821045068949081579844,
  673507145156424130884,
  673507145156424130884,
  823350349008341852484,
  823350349008341852484,
  675812425215684403524,
  675812425215684403524,
  823350349008341852484,
  823350349008341852484,
  823350348870936453444,
  823350349008341844294,
  823350349008341852484,
  823350349008341852484,
  823350348870936453444,
  823350349008341844294,
  675812425215684403524,
  675812425215684403524,
  675812425078279004484,
  675812425215684395334,
  823350349008341852484,
  823350349008341852484,
  823350349008341844294,
  823350348870936453444,
  823350349008341852484,
  823350349008341852484,
  823350349008341844294,
  823350348870936453444,
  675812425215684403524,
  675812425215684403524,
  675812425215684395334,
  675812425078279004484,
  821045068949081579844,
  821045068949081579844,
  821045068949081571654,
  821045068811676180804,
  673507145156424130884,
  673507145156424130884,
  673507145156424122694,
  673507145019018731844,
  823350349008341852484,
  823350349008341852484,
  823350349008341844294,
  823350348870936453444,
  821045068949081579844,
  821045068949081579844,
  821045068949081055684,
  821045060155136041284,
  673507145156424130884,
  673507145156424130884,
  673507145156423606724,
  673507136362478592324,
  823350349008341852484,
  823350349008341852484,
  823350349008341328324,
  823350340214396313924,
  675812425215684403524,
  675812425215684403524,
  675812425215683879364,
  675812416421738864964,
  823350349008341852484,
  823350349008341852484,
  823350348870936453444,
  823350349008341844294,
  823350349008341328324,
  823350340214396313924,
  823350348870935929284,
  823350340214396305734,
  823350349008341852484,
  823350349008341852484,
  823350348870936453444,
  823350349008341844294,
  823350349008341328324,
  823350340214396313924,
  823350348870935929284,
  823350340214396305734,
  675812425215684403524,
  675812425215684403524,
  675812425078279004484,
  675812425215684395334,
  675812425215683879364,
  675812416421738864964,
  675812425078278480324,
  675812416421738856774,
  821045068949081579844,
  821045068949081579844,
  821045068949081571654,
  821045068811676180804,
  821045068949081055684,
  821045060155136041284,
  821045068949081047494,
  821045060017730642244,
  673507145156424130884,
  673507145156424130884,
  673507145156424122694,
  673507145019018731844,
  673507145156423606724,
  673507136362478592324,
  673507145156423598534,
  673507136225073193284,
  823350349008341852484,
  823350349008341852484,
  823350349008341844294,
  823350348870936453444,
  823350349008341328324,
  823350340214396313924,
  823350349008341320134,
  823350340076990914884,
  821045068949081579844,
  821045068949081579844,
  673507145156424130884,
  673507145156424130884,
  823350349008341852484,
  823350349008341852484,
  675812425215684403524,
  675812425215684403524,
  821045068949081579844,
  821045068949081579844,
  823350349008341852484,
  823350349008341852484,
  823350348870936453444,
  823350349008341844294,
  823350349008341852484,
  823350349008341852484,
  823350348870936453444,
  823350349008341844294,
  675812425215684403524,
  675812425215684403524,
  675812425078279004484,
  675812425215684395334,
  821045068949081579844,
  821045068949081579844,
  821045068811676180804,
  821045068949081571654,
  673507145156424130884,
  673507145156424130884,
  673507145019018731844,
  673507145156424122694,
  823350349008341852484,
  823350349008341852484,
  823350348870936453444,
  823350349008341844294,
  821045068949081579844,
  821045068949081579844,
  821045068949081571654,
  821045068811676180804,
  673507145156424130884,
  673507145156424130884,
  673507145156424122694,
  673507145019018731844,
  823350349008341852484,
  823350349008341852484,
  823350349008341844294,
  823350348870936453444,
  11531480178536243524,
  11531480178536243524,
  11531480178536235334,
  11531480041130844484,
  11531480178536243524,
  11531480178536243524,
  11531480178536235334,
  11531480041130844484,
  11531480178536243524,
  11531480178536243524,
  11531480178536243524,
  11531480178536243524,
  9226200119275970884,
  9226200119275970884,
  11531480178536243524,
  11531480178536243524,
  9226200119275970884,
  9226200119275970884,
  11531480178536243524,
  11531480178536243524,
  11531480178536243524,
  11531480178536243524,
  9226200119275970884,
  9226200119275970884,
  11531480178536243524,
  11531480178536243524,
  9226200119275970884,
  9226200119275970884,
  11531480178536243524,
  11531480178536243524,
  11531480178536243524,
  11531480178536243524,
  9226200119275970884,
  9226200119275970884,
  11531480178536243524,
  11531480178536243524,
  9226200119275970884,
  9226200119275970884,
  11531480178536243524,
  11531480178536243524,
  11531480178536243524,
  11531480178536243524,
  9226200119275970884,
  9226200119275970884,
  11531480178536243524,
  11531480178536243524,
  9226200119275970884,
  9226200119275970884,
  11531480178536243524,
  11531480178536243524,
  11531480041130844484,
  11531480178536235334,
  11531480178536243524,
  11531480178536243524,
  11531480041130844484,
  11531480178536235334,
  164394719053111620,
  164394719053111620,
  164394719053103430,
  164394581647712580,
  164394719053111620,
  164394719053111620,
  164394581647712580,
  164394719053103430]
def ccdq_t4_aabbaabb_flip_cert_5 : List Nat := [164394719053111620,
  164394719053111620,
  164394719053103430,
  164394581647712580,
  164394719052587460,
  164385925107573060,
  164394719052579270,
  164385787702174020,
  164394719053111620,
  164394719053111620,
  164394719053103430,
  164394581647712580,
  164394719053111620,
  164394719053111620,
  164394719053103430,
  164394581647712580,
  164394719052587460,
  164385925107573060,
  164394719052579270,
  164385787702174020,
  164394719053111620,
  164394719053111620,
  164394719053111620,
  164394719053111620,
  164394719053111620,
  164394719053111620,
  164394719053111620,
  164394719053111620,
  164394719053103430,
  164394581647712580,
  164394719053111620,
  164394719053111620,
  164394719053103430,
  164394581647712580,
  164394719053111620,
  164394719053111620,
  164394719052587460,
  164385925107573060,
  164394719053111620,
  164394719053111620,
  164394719052587460,
  164385925107573060,
  164394719053111620,
  164394719053111620,
  164394719053103430,
  164394581647712580,
  164394719052587460,
  164385925107573060,
  164394719052579270,
  164385787702174020,
  164394719053111620,
  164394719053111620,
  164394719053111620,
  164394719053111620,
  164394719053111620,
  164394719053111620,
  164394719053111620,
  164394719053111620,
  164394719052587460,
  164385925107573060,
  164394719053111620,
  164394719053111620,
  164394719052587460,
  164385925107573060,
  164394719053111620,
  164394719053111620,
  164394719053103430,
  164394581647712580,
  164394719053111620,
  164394719053111620,
  164394581647712580,
  164394719053103430,
  164394719053111620,
  164394719053111620,
  164394719053103430,
  164394581647712580,
  164394719053111620,
  164394719053111620,
  164394719053111620,
  164394719053111620,
  164394719053111620,
  164394719053111620,
  164394719053111620,
  164394719053111620,
  164394719053103430,
  164394581647712580,
  164394719053111620,
  164394719053111620,
  164394719053103430,
  164394581647712580,
  164394719053111620,
  164394719053111620,
  164394719053111620,
  164394719053111620,
  164394719053111620,
  164394719053111620,
  164394719053111620,
  164394719053111620,
  164394719053103430,
  164394581647712580,
  164394719052587460,
  164385925107573060,
  164394719052579270,
  164385787702174020,
  164394719053111620,
  164394719053111620,
  164394581647712580,
  164394719053103430,
  164394719052587460,
  164385925107573060,
  164394581647188420,
  164385925107564870,
  164394719053111620,
  164394719053111620,
  164394719053103430,
  164394581647712580,
  164385925107573060,
  164394719052587460,
  164385925107564870,
  164394581647188420,
  164394719053111620,
  164394719053111620,
  164394719053103430,
  164394581647712580,
  164394719052587460,
  164385925107573060,
  164394719052579270,
  164385787702174020,
  164394719053111620,
  164394719053111620,
  164394719053103430,
  164394581647712580,
  164385925107573060,
  164394719052587460,
  164385925107564870,
  164394581647188420,
  164394719053111620,
  164394719053111620,
  164394719052587460,
  164385925107573060,
  164394719053111620,
  164394719053111620,
  164394719053103430,
  164394581647712580,
  164394719052587460,
  164385925107573060,
  164394719052579270,
  164385787702174020,
  164394719053111620,
  164394719053111620,
  164385925107573060,
  164394719052587460,
  164394719053111620,
  164394719053111620,
  164394719052587460,
  164385925107573060,
  164394719053111620,
  164394719053111620,
  164385925107573060,
  164394719052587460,
  164394719053111620,
  164394719053111620,
  164394719053103430,
  164394581647712580,
  164394719052587460,
  164385925107573060,
  164394719052579270,
  164385787702174020,
  164394719053111620,
  164394719053111620,
  164394581647712580,
  164394719053103430,
  164394719052587460,
  164385925107573060,
  164394581647188420,
  164385925107564870,
  164394719053111620,
  164394719053111620,
  164394719053103430,
  164394581647712580,
  164394719052587460,
  164385925107573060,
  164394719052579270,
  164385787702174020,
  164394719053111620,
  164394719053111620,
  164394719052587460,
  164385925107573060,
  164394719053111620,
  164394719053111620,
  164394719053103430,
  164394581647712580,
  164394719052587460,
  164385925107573060,
  164394719052579270,
  164385787702174020,
  164394719053111620,
  164394719053111620,
  164394719052587460,
  164385925107573060,
  811818882162459697476,
  811818882162459697476,
  664280958369802248516,
  664280958369802248516,
  811818882162459697476,
  811818882162459697476,
  811818882025054298436,
  811818882162459689286,
  664280958369802248516,
  664280958369802248516,
  664280958232396849476,
  664280958369802240326,
  811818882162459697476,
  811818882162459697476,
  664280958369802248516,
  664280958369802248516,
  811818882162459697476,
  811818882162459697476,
  664280958369802248516,
  664280958369802248516,
  664280958369801724356,
  664280949575856709956,
  664280958369802248516,
  664280958369802248516,
  664280958232396849476,
  664280958369802240326,
  664280958369801724356,
  664280949575856709956,
  664280958232396325316,
  664280949575856701766,
  664280958369802248516,
  664280958369802248516,
  664280958369801724356,
  664280949575856709956,
  811818882162459697476,
  811818882162459697476,
  811818882162459173316,
  811818873368514158916,
  664280958369802248516,
  664280958369802248516,
  811818882162459697476,
  811818882162459697476,
  664280958369802248516,
  664280958369802248516,
  664280958232396849476,
  664280958369802240326,
  811818882162459697476,
  811818882162459697476,
  811818882025054298436,
  811818882162459689286,
  664280958369802248516,
  664280958369802248516,
  811818882162459697476,
  811818882162459697476,
  811818882162459697476,
  811818882162459697476,
  823350349008341852484,
  823350349008341852484,
  823350349008341844294,
  823350348870936453444,
  823350349008341852484,
  823350349008341852484,
  823350349008341844294,
  823350348870936453444,
  823350349008341852484,
  823350349008341852484,
  675812425215684403524,
  675812425215684403524,
  823350349008341852484,
  823350349008341852484,
  675812425215684403524,
  675812425215684403524,
  821045068949081579844,
  821045068949081579844,
  673507145156424130884,
  673507145156424130884,
  823350349008341852484,
  823350349008341852484,
  675812425215684403524,
  675812425215684403524,
  821045068949081579844,
  821045068949081579844,
  673507145156424130884,
  673507145156424130884,
  823350349008341852484,
  823350349008341852484,
  675812425215684403524,
  675812425215684403524,
  823350349008341852484,
  823350349008341852484,
  675812425215684403524,
  675812425215684403524,
  821045068949081579844,
  821045068949081579844,
  673507145156424130884,
  673507145156424130884,
  823350349008341852484,
  823350349008341852484,
  675812425215684403524,
  675812425215684403524,
  821045068949081579844,
  821045068949081579844,
  673507145156424130884,
  673507145156424130884,
  823350349008341852484,
  823350349008341852484,
  675812425215684403524,
  675812425215684403524,
  823350349008341852484,
  823350349008341852484,
  675812425215684403524,
  675812425215684403524,
  821045068949081579844,
  821045068949081579844,
  673507145156424130884,
  673507145156424130884,
  823350349008341852484,
  823350349008341852484,
  675812425215684403524,
  675812425215684403524,
  821045068949081579844,
  821045068949081579844,
  673507145156424130884,
  673507145156424130884,
  823350349008341852484,
  823350349008341852484,
  675812425215684403524,
  675812425215684403524,
  823350349008341852484,
  823350349008341852484,
  675812425215684403524,
  675812425215684403524,
  821045068949081579844,
  821045068949081579844,
  673507145156424130884,
  673507145156424130884,
  823350349008341852484,
  823350349008341852484,
  675812425215684403524,
  675812425215684403524,
  821045068949081579844,
  821045068949081579844,
  673507145156424130884,
  673507145156424130884,
  823350349008341852484,
  823350349008341852484,
  823350348870936453444,
  823350349008341844294,
  823350349008341852484,
  823350349008341852484,
  823350348870936453444,
  823350349008341844294,
  675812425215684403524,
  675812425215684403524,
  675812425215684395334,
  675812425078279004484,
  675812425215684403524,
  675812425215684403524,
  675812425078279004484,
  675812425215684395334,
  675812425215684403524,
  675812425215684403524,
  675812425215684395334,
  675812425078279004484,
  675812425215683879364,
  675812416421738864964,
  675812425215683871174,
  675812416284333465924,
  675812425215684403524,
  675812425215684403524,
  675812425215684395334,
  675812425078279004484,
  675812425215684403524,
  675812425215684403524,
  675812425215684395334,
  675812425078279004484,
  675812425215683879364,
  675812416421738864964,
  675812425215683871174,
  675812416284333465924,
  823350349008341852484,
  823350349008341852484,
  823350349008341852484,
  823350349008341852484,
  823350349008341852484,
  823350349008341852484,
  823350349008341852484,
  823350349008341852484,
  823350349008341852484,
  823350349008341852484,
  673507145156424130884,
  673507145156424130884,
  823350349008341852484,
  823350349008341852484,
  823350349008341844294,
  823350348870936453444,
  823350349008341852484,
  823350349008341852484,
  823350349008341844294,
  823350348870936453444]
def ccdq_t4_aabbaabb_flip_cert_6 : List Nat := [823350349008341852484,
  823350349008341852484,
  823350349008341844294,
  823350348870936453444,
  673507145156424130884,
  673507145156424130884,
  673507145156424122694,
  673507145019018731844,
  823350349008341852484,
  823350349008341852484,
  823350349008341328324,
  823350340214396313924,
  823350349008341852484,
  823350349008341852484,
  821045068949081055684,
  821045060155136041284,
  823350349008341852484,
  823350349008341852484,
  823350349008341328324,
  823350340214396313924,
  673507145156424130884,
  673507145156424130884,
  673507145156423606724,
  673507136362478592324,
  823350349008341852484,
  823350349008341852484,
  823350349008341844294,
  823350348870936453444,
  823350349008341328324,
  823350340214396313924,
  823350349008341320134,
  823350340076990914884,
  673507145156424130884,
  673507145156424130884,
  673507145156424122694,
  673507145019018731844,
  673507145156423606724,
  673507136362478592324,
  673507145156423598534,
  673507136225073193284,
  823350349008341852484,
  823350349008341852484,
  823350349008341852484,
  823350349008341852484,
  823350349008341852484,
  823350349008341852484,
  823350349008341852484,
  823350349008341852484,
  823350349008341852484,
  823350349008341852484,
  673507145156424130884,
  673507145156424130884,
  823350349008341852484,
  823350349008341852484,
  823350349008341328324,
  823350340214396313924,
  823350349008341852484,
  823350349008341852484,
  821045068949081055684,
  821045060155136041284,
  823350349008341852484,
  823350349008341852484,
  823350349008341328324,
  823350340214396313924,
  673507145156424130884,
  673507145156424130884,
  673507145156423606724,
  673507136362478592324,
  821045068949081579844,
  821045068949081579844,
  673507145156424130884,
  673507145156424130884,
  675812425215684403524,
  675812425215684403524,
  673507145156424130884,
  673507145156424130884,
  673507145156423606724,
  673507136362478592324,
  675812425215684403524,
  675812425215684403524,
  675812425215683879364,
  675812416421738864964,
  675812425215684403524,
  675812425215684403524,
  821045068949081579844,
  821045068949081579844,
  675812425215684403524,
  675812425215684403524,
  823350349008341852484,
  823350349008341852484,
  673507145156424130884,
  673507145156424130884,
  675812425215684403524,
  675812425215684403524,
  675812425215683879364,
  675812416421738864964,
  821045068949081579844,
  821045068949081579844,
  821045068949081055684,
  821045060155136041284,
  673507145156424130884,
  673507145156424130884,
  673507145156423606724,
  673507136362478592324,
  675812425215684403524,
  675812425215684403524,
  821045068949081579844,
  821045068949081579844,
  675812425215684403524,
  675812425215684403524,
  823350349008341852484,
  823350349008341852484,
  673507145156424130884,
  673507145156424130884,
  821045068949081579844,
  821045068949081579844,
  821045068811676180804,
  821045068949081571654,
  673507145156424130884,
  673507145156424130884,
  673507145019018731844,
  673507145156424122694,
  675812425215684403524,
  675812425215684403524,
  675812425078279004484,
  675812425215684395334,
  675812425215684403524,
  675812425215684403524,
  675812425215683879364,
  675812416421738864964,
  821045068949081579844,
  821045068949081579844,
  821045068949081055684,
  821045060155136041284,
  673507145156424130884,
  673507145156424130884,
  673507145156423606724,
  673507136362478592324,
  673507145156424130884,
  673507145156424130884,
  673507145019018731844,
  673507145156424122694,
  673507145156423606724,
  673507136362478592324,
  673507145019018207684,
  673507136362478584134,
  675812425215684403524,
  675812425215684403524,
  675812425078279004484,
  675812425215684395334,
  675812425215683879364,
  675812416421738864964,
  675812425078278480324,
  675812416421738856774,
  675812425215684403524,
  675812425215684403524,
  821045068949081579844,
  821045068949081579844,
  675812425215684403524,
  675812425215684403524,
  823350349008341852484,
  823350349008341852484,
  673507145156424130884,
  673507145156424130884,
  821045068949081579844,
  821045068949081579844,
  673507145156424130884,
  673507145156424130884,
  675812425215684403524,
  675812425215684403524,
  821045068949081579844,
  821045068949081579844,
  823350349008341852484,
  823350349008341852484,
  675812425215684403524,
  675812425215684403524,
  675812425215683879364,
  675812416421738864964,
  821045068949081579844,
  821045068949081579844,
  821045068949081055684,
  821045060155136041284,
  673507145156424130884,
  673507145156424130884,
  673507145156423606724,
  673507136362478592324,
  673507145156424130884,
  673507145156424130884,
  673507145156423606724,
  673507136362478592324,
  675812425215684403524,
  675812425215684403524,
  675812425215683879364,
  675812416421738864964,
  821045068949081579844,
  821045068949081579844,
  821045068949081055684,
  821045060155136041284,
  823350349008341852484,
  823350349008341852484,
  823350349008341328324,
  823350340214396313924,
  675812425215684403524,
  675812425215684403524,
  821045068949081579844,
  821045068949081579844,
  675812425215684403524,
  675812425215684403524,
  823350349008341852484,
  823350349008341852484,
  673507145156424130884,
  673507145156424130884,
  675812425215684403524,
  675812425215684403524,
  675812425215683879364,
  675812416421738864964,
  821045068949081579844,
  821045068949081579844,
  821045068949081055684,
  821045060155136041284,
  673507145156424130884,
  673507145156424130884,
  673507145156423606724,
  673507136362478592324,
  823350349008341852484,
  823350349008341852484,
  823350348870936453444,
  823350349008341844294,
  823350349008341852484,
  823350349008341852484,
  823350348870936453444,
  823350349008341844294,
  821045068949081579844,
  821045068949081579844,
  821045068811676180804,
  821045068949081571654,
  823350349008341852484,
  823350349008341852484,
  823350348870936453444,
  823350349008341844294,
  823350349008341328324,
  823350340214396313924,
  823350348870935929284,
  823350340214396305734,
  821045068949081579844,
  821045068949081579844,
  821045068811676180804,
  821045068949081571654,
  821045068949081055684,
  821045060155136041284,
  821045068811675656644,
  821045060155136033094,
  675812425215684403524,
  675812425215684403524,
  675812425215684395334,
  675812425078279004484,
  675812425215684403524,
  675812425215684403524,
  675812425215684395334,
  675812425078279004484,
  823350349008341852484,
  823350349008341852484,
  821045068949081579844,
  821045068949081579844,
  823350349008341852484,
  823350349008341852484,
  673507145156424130884,
  673507145156424130884,
  823350349008341852484,
  823350349008341852484,
  823350349008341844294,
  823350348870936453444,
  673507145156424130884,
  673507145156424130884,
  673507145156424122694,
  673507145019018731844,
  823350349008341852484,
  823350349008341852484,
  821045068949081579844,
  821045068949081579844,
  823350349008341852484,
  823350349008341852484,
  673507145156424130884,
  673507145156424130884,
  673507145156424130884,
  673507145156424130884,
  675812425215684403524,
  675812425215684403524,
  675812425215684403524,
  675812425215684403524,
  821045068949081579844,
  821045068949081579844,
  673507145156424130884,
  673507145156424130884,
  675812425215684403524,
  675812425215684403524,
  821045068949081579844,
  821045068949081579844,
  673507145156424130884,
  673507145156424130884,
  673507145156424130884,
  673507145156424130884,
  673507145019018731844,
  673507145156424122694,
  675812425215684403524,
  675812425215684403524,
  675812425078279004484,
  675812425215684395334,
  675812425215684403524,
  675812425215684403524,
  821045068949081579844,
  821045068949081579844,
  673507145156424130884,
  673507145156424130884,
  673507145156424130884,
  673507145156424130884,
  675812425215684403524,
  675812425215684403524,
  821045068949081579844,
  821045068949081579844,
  823350349008341852484,
  823350349008341852484,
  675812425215684403524,
  675812425215684403524,
  821045068949081579844,
  821045068949081579844,
  673507145156424130884,
  673507145156424130884,
  823350349008341852484,
  823350349008341852484,
  823350348870936453444,
  823350349008341844294,
  821045068949081579844,
  821045068949081579844,
  821045068811676180804,
  821045068949081571654,
  821045068949081579844,
  821045068949081579844,
  821045068949081571654,
  821045068811676180804,
  673507145156424130884,
  673507145156424130884,
  673507145156424122694,
  673507145019018731844,
  821045068949081579844,
  821045068949081579844,
  821045068949081571654,
  821045068811676180804,
  673507145156424130884,
  673507145156424130884,
  673507145156424122694,
  673507145019018731844,
  821045068949081579844,
  821045068949081579844,
  821045068949081579844,
  821045068949081579844,
  673507145156424130884,
  673507145156424130884,
  673507145156424122694,
  673507145019018731844,
  821045068949081579844,
  821045068949081579844,
  821045068949081579844,
  821045068949081579844,
  821045068949081579844,
  821045068949081579844,
  821045068949081579844,
  821045068949081579844,
  821045068949081579844,
  821045068949081579844,
  821045068949081579844,
  821045068949081579844,
  821045068811676180804,
  821045068949081571654,
  821045068949081579844,
  821045068949081579844,
  821045068949081579844,
  821045068949081579844,
  821045068949081579844,
  821045068949081579844,
  821045068949081579844,
  821045068949081579844,
  821045068949081579844,
  821045068949081579844]

/-- Check ccdq_t4_aabbaabb_flip. C87 -/
theorem ccdq_t4_aabbaabb_flip : isZero kinds [aᵥ, bᵥ, cᵥ, dᵥ, iₒ, jₒ, kₒ, lₒ] 100000000000000
    (Prog.flip (ccdq_t4_aabbaabb) ++ (Prog.scale (-1) (Prog.outs [2, 3, 0, 1, 6, 7, 4, 5] (ccdq_t4_aabbaabb))))
    (ccdq_t4_aabbaabb_flip_cert_0 ++ (ccdq_t4_aabbaabb_flip_cert_1 ++ (ccdq_t4_aabbaabb_flip_cert_2 ++ (ccdq_t4_aabbaabb_flip_cert_3 ++ (ccdq_t4_aabbaabb_flip_cert_4 ++ (ccdq_t4_aabbaabb_flip_cert_5 ++ (ccdq_t4_aabbaabb_flip_cert_6))))))) = true := by decide +kernel

end Verif.Cert
