import Verif.Ein.Spin
import Verif.Gen.Qf
import Verif.Gen.SiQf2_aaaa

/-! Written by `/verif/tools/gen.py`. Checks of einsum programs. -/

set_option maxRecDepth 100000

namespace Verif.Cert

open Verif.Ein Verif.Ein.N


open Verif.Gen

def residQf2_aaaa_cert_0 : List Nat := [523517601265522319424,
  375979686266810409024,
  521212321206262046784,
  375979686129405009984,
  521212330000207585344,
  523517609922062458944,
  521212321068856647744,
  373674406070144737344,
  521212329862802186304,
  521212329862802186304,
  373674397413604597824,
  375979677335459471424,
  373674406207550136384,
  523517601128116920384,
  373674397276199198784,
  373674397276199198784,
  373674406070144737344,
  521212321068856647744,
  523517601265522311234,
  375979686266810400834,
  521212321206262038594,
  375979686129405001794,
  521212330000207577154,
  523517609922062450754,
  521212321068856639554,
  373674406070144729154,
  521212329862802178114,
  521212329862802178114,
  373674397413604589634,
  375979677335459463234,
  373674406207550128194,
  523517601128116912194,
  373674397276199190594,
  373674397276199190594,
  373674406070144729154,
  521212321068856639554,
  523517601265522319424,
  375979686266810409024,
  521212330000207585344,
  523517609922062458944,
  521212329862802186304,
  521212329862802186304,
  373674406207550136384,
  523517601128116920384,
  373674406070144737344,
  521212321068856647744,
  523517601265522319424,
  375979686266810409024,
  523517601128116920384,
  373674406207550136384,
  375979677472864870464,
  375979677472864870464,
  375979677335459471424,
  373674397413604597824,
  523517601265522319424,
  375979686266810409024,
  523517601265522311234,
  375979686266810400834,
  521212330000207577154,
  523517609922062450754,
  521212329862802178114,
  521212329862802178114,
  373674406207550128194,
  523517601128116912194,
  373674406070144729154,
  521212321068856639554,
  523517601265522311234,
  375979686266810400834,
  523517601128116912194,
  373674406207550128194,
  375979677472864862274,
  375979677472864862274,
  375979677335459463234,
  373674397413604589634,
  523517601265522311234,
  375979686266810400834,
  523517601265522319424,
  375979686266810409024,
  521212321068856647744,
  373674406070144737344,
  521212329862802186304,
  521212329862802186304,
  521212321206262046784,
  375979686129405009984,
  521212330000207585344,
  523517609922062458944,
  521212321068856647744,
  373674406070144737344,
  373674397413604597824,
  375979677335459471424,
  373674406207550136384,
  523517601128116920384,
  373674397276199198784,
  373674397276199198784,
  523517601265522311234,
  375979686266810400834,
  521212321068856639554,
  373674406070144729154,
  521212329862802178114,
  521212329862802178114,
  521212321206262038594,
  375979686129405001794,
  521212330000207577154,
  523517609922062450754,
  521212321068856639554,
  373674406070144729154,
  373674397413604589634,
  375979677335459463234,
  373674406207550128194,
  523517601128116912194,
  373674397276199190594,
  373674397276199190594,
  523517601128116920384,
  373674406207550136384,
  521212321206262046784,
  375979686129405009984,
  521212330000207585344,
  523517609922062458944,
  373674397413604597824,
  375979677335459471424,
  373674406207550136384,
  523517601128116920384,
  523517601128116912194,
  373674406207550128194,
  521212321206262038594,
  375979686129405001794,
  521212330000207577154,
  523517609922062450754,
  373674397413604589634,
  375979677335459463234,
  373674406207550128194,
  523517601128116912194,
  523517601128116920384,
  373674406207550136384,
  521212329862802186304,
  521212329862802186304,
  521212330000207585344,
  523517609922062458944,
  373674406207550136384,
  523517601128116920384,
  523517601265522319424,
  375979686266810409024,
  523517601128116920384,
  373674406207550136384,
  375979677472864870464,
  375979677472864870464,
  375979677335459471424,
  373674397413604597824,
  523517601128116912194,
  373674406207550128194,
  521212329862802178114,
  521212329862802178114,
  521212330000207577154,
  523517609922062450754,
  373674406207550128194,
  523517601128116912194,
  523517601265522311234,
  375979686266810400834,
  523517601128116912194,
  373674406207550128194,
  375979677472864862274,
  375979677472864862274,
  375979677335459463234,
  373674397413604589634,
  523517601128116920384,
  373674406207550136384,
  523517601128116920384,
  373674406207550136384,
  521212330000207585344,
  523517609922062458944,
  521212321068856647744,
  373674406070144737344,
  373674406207550136384,
  523517601128116920384,
  373674397276199198784,
  373674397276199198784,
  523517601265522319424,
  375979686266810409024,
  375979677472864870464,
  375979677472864870464,
  523517601128116912194,
  373674406207550128194,
  523517601128116912194,
  373674406207550128194,
  521212330000207577154,
  523517609922062450754,
  521212321068856639554,
  373674406070144729154,
  373674406207550128194,
  523517601128116912194,
  373674397276199190594,
  373674397276199190594,
  523517601265522311234,
  375979686266810400834,
  375979677472864862274,
  375979677472864862274,
  523517601128116920384,
  373674406207550136384,
  521212321206262046784,
  375979686129405009984,
  521212330000207585344,
  523517609922062458944,
  523517601128116920384,
  373674406207550136384,
  521212330000207585344,
  523517609922062458944,
  523517601128116920384,
  373674406207550136384,
  523517601128116920384,
  373674406207550136384,
  521212330000207061184,
  523517609922061934784,
  521212330000207061184,
  523517609922061934784,
  523517601128116396224,
  373674406207549612224,
  521212330000207061184,
  523517609922061934784,
  523517601128116920384,
  373674406207550136384,
  373674406207550136384,
  523517601128116920384,
  523517601128116920384,
  373674406207550136384,
  521212321068856647744,
  373674406070144737344,
  521212329862802186304,
  521212329862802186304,
  373674406207550136384,
  523517601128116920384,
  373674406207550136384,
  523517601128116920384,
  373674397276199198784,
  373674397276199198784,
  373674406207550136384,
  523517601128116920384,
  523517601128116912194,
  373674406207550128194,
  373674406207550128194,
  523517601128116912194,
  523517601128116912194,
  373674406207550128194,
  521212321068856639554,
  373674406070144729154,
  521212329862802178114,
  521212329862802178114,
  373674406207550128194,
  523517601128116912194,
  373674406207550128194,
  523517601128116912194,
  373674397276199190594,
  373674397276199190594,
  373674406207550128194,
  523517601128116912194,
  523517601128116920384,
  373674406207550136384,
  373674406207550136384,
  523517601128116920384,
  373674406207550136384,
  523517601128116920384,
  373674406207550136384,
  523517601128116920384,
  523517601128116920384,
  373674406207550136384,
  373674406207550136384,
  523517601128116920384,
  521212329862802186304,
  521212329862802186304,
  373674406207550136384,
  523517601128116920384,
  373674406207550136384,
  523517601128116920384,
  523517601128116920384,
  373674406207550136384,
  523517601128116920384,
  373674406207550136384,
  375979677472864870464,
  375979677472864870464,
  523517601128116920384,
  373674406207550136384,
  373674406207550136384,
  523517601128116920384,
  523517601128116912194,
  373674406207550128194,
  373674406207550128194,
  523517601128116912194,
  521212329862802178114,
  521212329862802178114,
  373674406207550128194,
  523517601128116912194,
  373674406207550128194,
  523517601128116912194,
  523517601128116912194,
  373674406207550128194,
  523517601128116912194,
  373674406207550128194,
  375979677472864862274,
  375979677472864862274,
  523517601128116912194,
  373674406207550128194,
  373674406207550128194,
  523517601128116912194,
  523517601128116396224,
  373674406207549612224,
  373674406207549612224,
  523517601128116396224,
  521212329862801662144,
  521212329862801662144,
  373674406207549612224,
  523517601128116396224,
  373674406207549612224,
  523517601128116396224,
  523517601128116396224,
  373674406207549612224,
  523517601128116396224,
  373674406207549612224,
  375979677472864346304,
  375979677472864346304,
  523517601128116396224,
  373674406207549612224,
  373674406207549612224,
  523517601128116396224,
  523517601128116388034,
  373674406207549604034,
  373674406207549604034,
  523517601128116388034,
  521212329862801653954,
  521212329862801653954,
  373674406207549604034,
  523517601128116388034,
  373674406207549604034,
  523517601128116388034,
  523517601128116388034,
  373674406207549604034,
  523517601128116388034,
  373674406207549604034,
  375979677472864338114,
  375979677472864338114,
  523517601128116388034,
  373674406207549604034,
  373674406207549604034,
  523517601128116388034,
  523517601128116920384,
  373674406207550136384,
  373674406207550136384,
  523517601128116920384,
  523517601128116920384,
  373674406207550136384,
  375979677335459471424,
  373674397413604597824,
  373674406207550136384,
  523517601128116920384,
  373674406207550136384,
  523517601128116920384,
  373674397276199198784,
  373674397276199198784,
  373674406207550136384,
  523517601128116920384,
  375979677472864870464,
  375979677472864870464,
  523517601128116396224,
  373674406207549612224,
  373674406207549612224,
  523517601128116396224,
  523517601128116396224,
  373674406207549612224,
  375979677335458947264,
  373674397413604073664,
  373674406207549612224,
  523517601128116396224,
  373674406207549612224,
  523517601128116396224,
  373674397276198674624,
  373674397276198674624,
  373674406207549612224,
  523517601128116396224,
  375979677472864346304,
  375979677472864346304,
  375979686266810409024,
  523517601265522319424,
  523517601265522319424,
  375979686266810409024,
  523517601128116920384,
  373674406207550136384,
  521212330000207585344,
  523517609922062458944,
  521212329862802186304,
  521212329862802186304,
  521212321206262046784,
  375979686129405009984,
  373674406207550136384,
  523517601128116920384,
  373674397413604597824,
  375979677335459471424,
  373674397276199198784,
  373674397276199198784,
  375979686266810400834,
  523517601265522311234,
  523517601265522311234,
  375979686266810400834]
def residQf2_aaaa_cert_1 : List Nat := [523517601128116912194,
  373674406207550128194,
  521212330000207577154,
  523517609922062450754,
  521212329862802178114,
  521212329862802178114,
  521212321206262038594,
  375979686129405001794,
  373674406207550128194,
  523517601128116912194,
  373674397413604589634,
  375979677335459463234,
  373674397276199190594,
  373674397276199190594,
  375979686129405009984,
  521212321206262046784,
  523517601265522319424,
  375979686266810409024,
  521212330000207585344,
  523517609922062458944,
  373674406070144737344,
  521212321068856647744,
  373674397413604597824,
  375979677335459471424,
  523517601128116912194,
  373674406207550128194,
  523517601265522311234,
  375979686266810400834,
  521212330000207577154,
  523517609922062450754,
  373674406070144729154,
  521212321068856639554,
  373674397413604589634,
  375979677335459463234,
  523517601265522319424,
  375979686266810409024,
  521212330000207585344,
  523517609922062458944,
  521212329862802186304,
  521212329862802186304,
  373674406207550136384,
  523517601128116920384,
  523517601265522319424,
  375979686266810409024,
  523517601128116920384,
  373674406207550136384,
  523517601265522319424,
  375979686266810409024,
  523517601128116920384,
  373674406207550136384,
  523517601265522311234,
  375979686266810400834,
  521212330000207577154,
  523517609922062450754,
  521212329862802178114,
  521212329862802178114,
  373674406207550128194,
  523517601128116912194,
  523517601265522311234,
  375979686266810400834,
  523517601128116912194,
  373674406207550128194,
  523517601265522311234,
  375979686266810400834,
  523517601128116912194,
  373674406207550128194,
  523517601265521795264,
  375979686266809884864,
  521212330000207061184,
  523517609922061934784,
  521212329862801662144,
  521212329862801662144,
  373674406207549612224,
  523517601128116396224,
  523517601265521795264,
  375979686266809884864,
  523517601128116396224,
  373674406207549612224,
  523517601265521795264,
  375979686266809884864,
  523517601128116396224,
  373674406207549612224,
  523517601265521787074,
  375979686266809876674,
  521212330000207052994,
  523517609922061926594,
  521212329862801653954,
  521212329862801653954,
  373674406207549604034,
  523517601128116388034,
  523517601265521787074,
  375979686266809876674,
  523517601128116388034,
  373674406207549604034,
  523517601265521787074,
  375979686266809876674,
  523517601128116388034,
  373674406207549604034,
  523517601128116920384,
  373674406207550136384,
  523517601128116920384,
  373674406207550136384,
  521212330000207585344,
  523517609922062458944,
  521212321068856647744,
  373674406070144737344,
  373674406070144737344,
  521212321068856647744,
  373674397276199198784,
  373674397276199198784,
  523517601265522319424,
  375979686266810409024,
  523517601265522319424,
  375979686266810409024,
  523517601128116912194,
  373674406207550128194,
  523517601128116912194,
  373674406207550128194,
  521212330000207577154,
  523517609922062450754,
  521212321068856639554,
  373674406070144729154,
  373674406070144729154,
  521212321068856639554,
  373674397276199190594,
  373674397276199190594,
  523517601265522311234,
  375979686266810400834,
  523517601265522311234,
  375979686266810400834,
  523517601265521795264,
  375979686266809884864,
  523517601128116396224,
  373674406207549612224,
  521212330000207061184,
  523517609922061934784,
  521212321206261522624,
  375979686129404485824,
  373674406207549612224,
  523517601128116396224,
  373674397276198674624,
  373674397276198674624,
  523517601265521795264,
  375979686266809884864,
  523517601265521795264,
  375979686266809884864,
  523517601265521787074,
  375979686266809876674,
  523517601128116388034,
  373674406207549604034,
  521212330000207052994,
  523517609922061926594,
  521212321206261514434,
  375979686129404477634,
  373674406207549604034,
  523517601128116388034,
  373674397276198666434,
  373674397276198666434,
  523517601265521787074,
  375979686266809876674,
  523517601265521787074,
  375979686266809876674,
  521212321206262046784,
  375979686129405009984,
  373674406207550136384,
  523517601128116920384,
  373674406070144737344,
  521212321068856647744,
  523517601265522319424,
  375979686266810409024,
  375979686266810409024,
  523517601265522319424,
  375979686129405009984,
  521212321206262046784,
  521212321206262046784,
  375979686129405009984,
  521212330000207585344,
  523517609922062458944,
  521212329862802186304,
  521212329862802186304,
  375979677472864870464,
  375979677472864870464,
  375979677335459471424,
  373674397413604597824,
  375979686266810409024,
  523517601265522319424,
  523517601265522319424,
  375979686266810409024,
  523517601128116920384,
  373674406207550136384,
  375979686266810409024,
  523517601265522319424,
  523517601265522311234,
  375979686266810400834,
  375979686266810400834,
  523517601265522311234,
  375979686129405001794,
  521212321206262038594,
  521212321206262038594,
  375979686129405001794,
  521212330000207577154,
  523517609922062450754,
  521212329862802178114,
  521212329862802178114,
  375979677472864862274,
  375979677472864862274,
  375979677335459463234,
  373674397413604589634,
  375979686266810400834,
  523517601265522311234,
  523517601265522311234,
  375979686266810400834,
  523517601128116912194,
  373674406207550128194,
  375979686266810400834,
  523517601265522311234,
  521212321206261522624,
  375979686129404485824,
  373674406207549612224,
  523517601128116396224,
  373674406070144213184,
  521212321068856123584,
  521212321206261522624,
  375979686129404485824,
  521212330000207061184,
  523517609922061934784,
  521212329862801662144,
  521212329862801662144,
  375979677472864346304,
  375979677472864346304,
  375979677335458947264,
  373674397413604073664,
  375979686266809884864,
  523517601265521795264,
  521212321206261522624,
  375979686129404485824,
  521212321068856123584,
  373674406070144213184,
  373674406207549612224,
  523517601128116396224,
  521212321206261514434,
  375979686129404477634,
  373674406207549604034,
  523517601128116388034,
  373674406070144204994,
  521212321068856115394,
  521212321206261514434,
  375979686129404477634,
  521212330000207052994,
  523517609922061926594,
  521212329862801653954,
  521212329862801653954,
  375979677472864338114,
  375979677472864338114,
  375979677335458939074,
  373674397413604065474,
  375979686266809876674,
  523517601265521787074,
  521212321206261514434,
  375979686129404477634,
  521212321068856115394,
  373674406070144204994,
  373674406207549604034,
  523517601128116388034,
  521212321206262046784,
  375979686129405009984,
  373674406207550136384,
  523517601128116920384,
  373674406070144737344,
  521212321068856647744,
  373674397413604597824,
  375979677335459471424,
  373674397276199198784,
  373674397276199198784,
  373674406207550136384,
  523517601128116920384,
  375979677472864870464,
  375979677472864870464,
  375979677335459471424,
  373674397413604597824,
  375979686266810409024,
  523517601265522319424,
  521212321206261522624,
  375979686129404485824,
  373674406207549612224,
  523517601128116396224,
  373674406070144213184,
  521212321068856123584,
  373674397413604073664,
  375979677335458947264,
  373674397276198674624,
  373674397276198674624,
  373674406207549612224,
  523517601128116396224,
  375979677472864346304,
  375979677472864346304,
  375979677335458947264,
  373674397413604073664,
  375979686266809884864,
  523517601265521795264,
  375979686266810409024,
  523517601265522319424,
  375979686266810409024,
  523517601265522319424,
  521212321068856647744,
  373674406070144737344,
  373674406207550136384,
  523517601128116920384,
  521212321068856647744,
  373674406070144737344,
  521212330000207585344,
  523517609922062458944,
  521212321068856647744,
  373674406070144737344,
  521212321068856647744,
  373674406070144737344,
  373674397413604597824,
  375979677335459471424,
  375979686266810400834,
  523517601265522311234,
  375979686266810400834,
  523517601265522311234,
  521212321068856639554,
  373674406070144729154,
  373674406207550128194,
  523517601128116912194,
  521212321068856639554,
  373674406070144729154,
  521212330000207577154,
  523517609922062450754,
  521212321068856639554,
  373674406070144729154,
  521212321068856639554,
  373674406070144729154,
  373674397413604589634,
  375979677335459463234,
  373674406207550136384,
  523517601128116920384,
  373674406207550136384,
  523517601128116920384,
  521212321068856647744,
  373674406070144737344,
  373674406207550136384,
  523517601128116920384,
  521212321068856639554,
  373674406070144729154,
  373674406207550128194,
  523517601128116912194,
  521212321068856639554,
  373674406070144729154,
  521212321068856639554,
  373674406070144729154,
  523517601128116920384,
  373674406207550136384,
  375979686266810409024,
  523517601265522319424,
  521212321068856647744,
  373674406070144737344,
  521212330000207585344,
  523517609922062458944,
  523517601128116920384,
  373674406207550136384,
  523517601128116920384,
  373674406207550136384,
  375979677472864870464,
  375979677472864870464,
  523517601265522319424,
  375979686266810409024,
  523517601128116912194,
  373674406207550128194,
  375979686266810400834,
  523517601265522311234,
  521212321068856639554,
  373674406070144729154,
  521212330000207577154,
  523517609922062450754,
  523517601128116912194,
  373674406207550128194,
  523517601128116912194,
  373674406207550128194,
  375979677472864862274,
  375979677472864862274,
  523517601265522311234,
  375979686266810400834,
  521212321068856123584,
  373674406070144213184,
  373674406207549612224,
  523517601128116396224,
  521212321068856123584,
  373674406070144213184,
  521212330000207061184,
  523517609922061934784,
  523517601128116396224,
  373674406207549612224,
  523517601128116396224,
  373674406207549612224,
  375979677472864346304,
  375979677472864346304,
  521212321206261522624,
  375979686129404485824]
def residQf2_aaaa_cert_2 : List Nat := [521212321068856115394,
  373674406070144204994,
  373674406207549604034,
  523517601128116388034,
  521212321068856115394,
  373674406070144204994,
  521212330000207052994,
  523517609922061926594,
  523517601128116388034,
  373674406207549604034,
  523517601128116388034,
  373674406207549604034,
  375979677472864338114,
  375979677472864338114,
  521212321206261514434,
  375979686129404477634,
  523517601128116920384,
  373674406207550136384,
  375979686266810409024,
  523517601265522319424,
  523517601128116920384,
  373674406207550136384,
  375979677335459471424,
  373674397413604597824,
  521212321068856647744,
  373674406070144737344,
  521212330000207585344,
  523517609922062458944,
  521212321068856647744,
  373674406070144737344,
  521212321068856647744,
  373674406070144737344,
  375979677472864870464,
  375979677472864870464,
  523517601265522319424,
  375979686266810409024,
  523517601128116912194,
  373674406207550128194,
  375979686266810400834,
  523517601265522311234,
  523517601128116912194,
  373674406207550128194,
  375979677335459463234,
  373674397413604589634,
  521212321068856639554,
  373674406070144729154,
  521212330000207577154,
  523517609922062450754,
  521212321068856639554,
  373674406070144729154,
  521212321068856639554,
  373674406070144729154,
  375979677472864862274,
  375979677472864862274,
  523517601265522311234,
  375979686266810400834,
  521212321068856123584,
  373674406070144213184,
  373674406207549612224,
  523517601128116396224,
  523517601128116396224,
  373674406207549612224,
  375979677335458947264,
  373674397413604073664,
  521212321068856123584,
  373674406070144213184,
  521212330000207061184,
  523517609922061934784,
  521212321068856123584,
  373674406070144213184,
  521212321068856123584,
  373674406070144213184,
  375979677472864346304,
  375979677472864346304,
  521212321206261522624,
  375979686129404485824,
  521212321068856115394,
  373674406070144204994,
  373674406207549604034,
  523517601128116388034,
  523517601128116388034,
  373674406207549604034,
  375979677335458939074,
  373674397413604065474,
  521212321068856115394,
  373674406070144204994,
  521212330000207052994,
  523517609922061926594,
  521212321068856115394,
  373674406070144204994,
  521212321068856115394,
  373674406070144204994,
  375979677472864338114,
  375979677472864338114,
  521212321206261514434,
  375979686129404477634,
  521212321068856647744,
  373674406070144737344,
  373674406207550136384,
  523517601128116920384,
  521212321068856647744,
  373674406070144737344,
  521212321068856647744,
  373674406070144737344,
  373674397413604597824,
  375979677335459471424,
  523517601128116920384,
  373674406207550136384,
  523517601128116920384,
  373674406207550136384,
  375979677472864870464,
  375979677472864870464,
  521212321068856639554,
  373674406070144729154,
  373674406207550128194,
  523517601128116912194,
  521212321068856639554,
  373674406070144729154,
  521212321068856639554,
  373674406070144729154,
  373674397413604589634,
  375979677335459463234,
  523517601128116912194,
  373674406207550128194,
  523517601128116912194,
  373674406207550128194,
  375979677472864862274,
  375979677472864862274,
  521212321068856123584,
  373674406070144213184,
  373674406207549612224,
  523517601128116396224,
  521212321068856123584,
  373674406070144213184,
  521212321068856123584,
  373674406070144213184,
  373674397413604073664,
  375979677335458947264,
  523517601128116396224,
  373674406207549612224,
  523517601128116396224,
  373674406207549612224,
  375979677472864346304,
  375979677472864346304,
  521212321068856115394,
  373674406070144204994,
  373674406207549604034,
  523517601128116388034,
  521212321068856115394,
  373674406070144204994,
  521212321068856115394,
  373674406070144204994,
  373674397413604065474,
  375979677335458939074,
  523517601128116388034,
  373674406207549604034,
  523517601128116388034,
  373674406207549604034,
  375979677472864338114,
  375979677472864338114,
  523517601128116920384,
  373674406207550136384,
  523517601128116920384,
  373674406207550136384,
  521212321206262046784,
  375979686129405009984,
  521212321068856647744,
  373674406070144737344,
  523517601265522319424,
  375979686266810409024,
  521212321206261522624,
  375979686129404485824,
  523517601128116396224,
  373674406207549612224,
  521212321206261522624,
  375979686129404485824,
  521212321068856123584,
  373674406070144213184,
  523517601265521795264,
  375979686266809884864,
  521212321206262046784,
  375979686129405009984,
  521212321206262046784,
  375979686129405009984,
  521212321068856647744,
  373674406070144737344,
  523517601265522319424,
  375979686266810409024,
  523517601128116920384,
  373674406207550136384,
  521212321206261522624,
  375979686129404485824,
  521212321206261522624,
  375979686129404485824,
  521212321068856123584,
  373674406070144213184,
  523517601265521795264,
  375979686266809884864,
  523517601128116396224,
  373674406207549612224,
  521212321068856647744,
  373674406070144737344,
  373674397413604597824,
  375979677335459471424,
  523517601128116920384,
  373674406207550136384,
  523517609922062458944,
  521212330000207585344,
  375979677472864870464,
  375979677472864870464,
  375979686266810409024,
  523517601265522319424,
  521212321068856647744,
  373674406070144737344,
  521212329862802186304,
  521212329862802186304,
  521212321068856639554,
  373674406070144729154,
  373674397413604589634,
  375979677335459463234,
  523517601128116912194,
  373674406207550128194,
  523517609922062450754,
  521212330000207577154,
  375979677472864862274,
  375979677472864862274,
  375979686266810400834,
  523517601265522311234,
  521212321068856639554,
  373674406070144729154,
  521212329862802178114,
  521212329862802178114,
  521212321206262046784,
  375979686129405009984,
  523517601128116920384,
  373674406207550136384,
  523517609922062458944,
  521212330000207585344,
  373674397413604597824,
  375979677335459471424,
  373674397276199198784,
  373674397276199198784,
  373674406070144737344,
  521212321068856647744,
  375979677472864870464,
  375979677472864870464,
  375979686266810409024,
  523517601265522319424,
  375979677335459471424,
  373674397413604597824,
  521212321206262046784,
  375979686129405009984,
  373674397413604597824,
  375979677335459471424,
  523517601265522319424,
  375979686266810409024,
  523517610059467857984,
  523517610059467857984,
  523517601128116920384,
  373674406207550136384,
  523517609922062458944,
  521212330000207585344,
  521212321206262046784,
  375979686129405009984,
  521212330000207585344,
  523517609922062458944,
  521212321068856647744,
  373674406070144737344,
  521212329862802186304,
  521212329862802186304,
  521212321206262038594,
  375979686129405001794,
  373674397413604589634,
  375979677335459463234,
  523517601265522311234,
  375979686266810400834,
  523517610059467849794,
  523517610059467849794,
  523517601128116912194,
  373674406207550128194,
  523517609922062450754,
  521212330000207577154,
  521212321206262038594,
  375979686129405001794,
  521212330000207577154,
  523517609922062450754,
  521212321068856639554,
  373674406070144729154,
  521212329862802178114,
  521212329862802178114,
  521212321206262046784,
  375979686129405009984,
  523517601128116920384,
  373674406207550136384,
  523517609922062458944,
  521212330000207585344,
  373674397413604597824,
  375979677335459471424,
  373674397276199198784,
  373674397276199198784,
  373674406070144737344,
  521212321068856647744,
  523517601265522319424,
  375979686266810409024,
  523517610059467857984,
  523517610059467857984,
  523517601128116920384,
  373674406207550136384,
  521212321206262046784,
  375979686129405009984,
  521212330000207585344,
  523517609922062458944,
  523517601128116920384,
  373674406207550136384,
  521212321206262038594,
  375979686129405001794,
  523517601128116912194,
  373674406207550128194,
  523517609922062450754,
  521212330000207577154,
  373674397413604589634,
  375979677335459463234,
  373674397276199190594,
  373674397276199190594,
  373674406070144729154,
  521212321068856639554,
  523517601265522311234,
  375979686266810400834,
  523517610059467849794,
  523517610059467849794,
  523517601128116912194,
  373674406207550128194,
  521212321206262038594,
  375979686129405001794,
  521212330000207577154,
  523517609922062450754,
  523517601128116912194,
  373674406207550128194,
  521212321206262046784,
  375979686129405009984,
  521212321206262046784,
  375979686129405009984,
  375979677472864870464,
  375979677472864870464,
  375979686266810409024,
  523517601265522319424,
  375979677335459471424,
  373674397413604597824,
  375979686129405009984,
  521212321206262046784,
  521212321206262046784,
  375979686129405009984,
  521212330000207585344,
  523517609922062458944,
  521212321068856647744,
  373674406070144737344,
  521212329862802186304,
  521212329862802186304,
  521212321206262038594,
  375979686129405001794,
  521212321206262038594,
  375979686129405001794,
  375979677472864862274,
  375979677472864862274,
  375979686266810400834,
  523517601265522311234,
  375979677335459463234,
  373674397413604589634,
  375979686129405001794,
  521212321206262038594,
  521212321206262038594,
  375979686129405001794,
  521212330000207577154,
  523517609922062450754,
  521212321068856639554,
  373674406070144729154,
  521212329862802178114,
  521212329862802178114,
  521212321206262046784,
  375979686129405009984,
  373674397413604597824,
  375979677335459471424,
  373674406207550136384,
  523517601128116920384,
  373674397276199198784,
  373674397276199198784,
  373674406070144737344,
  521212321068856647744,
  375979677472864870464,
  375979677472864870464,
  375979686266810409024,
  523517601265522319424,
  375979677335459471424,
  373674397413604597824,
  375979686129405009984,
  521212321206262046784,
  521212321068856647744,
  373674406070144737344,
  521212321068856647744,
  373674406070144737344]
def residQf2_aaaa_cert_3 : List Nat := [523517601128116920384,
  373674406207550136384,
  523517609922062458944,
  521212330000207585344,
  375979677472864870464,
  375979677472864870464,
  375979686266810409024,
  523517601265522319424,
  521212321206262046784,
  375979686129405009984,
  521212330000207585344,
  523517609922062458944,
  521212321068856639554,
  373674406070144729154,
  521212321068856639554,
  373674406070144729154,
  523517601128116912194,
  373674406207550128194,
  523517609922062450754,
  521212330000207577154,
  375979677472864862274,
  375979677472864862274,
  375979686266810400834,
  523517601265522311234,
  521212321206262038594,
  375979686129405001794,
  521212330000207577154,
  523517609922062450754,
  521212321206262046784,
  375979686129405009984,
  523517601128116920384,
  373674406207550136384,
  523517609922062458944,
  521212330000207585344,
  521212321206262046784,
  375979686129405009984,
  521212321068856647744,
  373674406070144737344,
  521212329862802186304,
  521212329862802186304,
  375979677472864870464,
  375979677472864870464,
  375979686266810409024,
  523517601265522319424,
  375979677335459471424,
  373674397413604597824,
  521212321206262046784,
  375979686129405009984,
  521212330000207585344,
  523517609922062458944,
  523517601128116920384,
  373674406207550136384,
  521212321206262038594,
  375979686129405001794,
  523517601128116912194,
  373674406207550128194,
  523517609922062450754,
  521212330000207577154,
  521212321206262038594,
  375979686129405001794,
  521212321068856639554,
  373674406070144729154,
  521212329862802178114,
  521212329862802178114,
  375979677472864862274,
  375979677472864862274,
  375979686266810400834,
  523517601265522311234,
  375979677335459463234,
  373674397413604589634,
  521212321206262038594,
  375979686129405001794,
  521212330000207577154,
  523517609922062450754,
  523517601128116912194,
  373674406207550128194,
  521212321068856647744,
  373674406070144737344,
  521212321068856647744,
  373674406070144737344,
  521212329862802186304,
  521212329862802186304,
  373674397413604597824,
  375979677335459471424,
  373674406207550136384,
  523517601128116920384,
  523517601128116920384,
  373674406207550136384,
  523517609922062458944,
  521212330000207585344,
  375979677472864870464,
  375979677472864870464,
  375979686266810409024,
  523517601265522319424,
  521212321068856647744,
  373674406070144737344,
  521212321068856639554,
  373674406070144729154,
  521212321068856639554,
  373674406070144729154,
  521212329862802178114,
  521212329862802178114,
  373674397413604589634,
  375979677335459463234,
  373674406207550128194,
  523517601128116912194,
  523517601128116912194,
  373674406207550128194,
  523517609922062450754,
  521212330000207577154,
  375979677472864862274,
  375979677472864862274,
  375979686266810400834,
  523517601265522311234,
  521212321068856639554,
  373674406070144729154,
  373674406070144737344,
  521212321068856647744,
  523517601265522319424,
  375979686266810409024,
  521212330000207585344,
  523517609922062458944,
  373674406070144737344,
  521212321068856647744,
  373674406070144737344,
  521212321068856647744,
  523517601265522319424,
  375979686266810409024,
  523517601265522319424,
  375979686266810409024,
  375979677335459471424,
  373674397413604597824,
  373674406070144737344,
  521212321068856647744,
  523517601265522319424,
  375979686266810409024,
  373674406070144729154,
  521212321068856639554,
  523517601265522311234,
  375979686266810400834,
  521212330000207577154,
  523517609922062450754,
  373674406070144729154,
  521212321068856639554,
  373674406070144729154,
  521212321068856639554,
  523517601265522311234,
  375979686266810400834,
  523517601265522311234,
  375979686266810400834,
  375979677335459463234,
  373674397413604589634,
  373674406070144729154,
  521212321068856639554,
  523517601265522311234,
  375979686266810400834,
  373674406070144213184,
  521212321068856123584,
  523517601265521795264,
  375979686266809884864,
  521212330000207061184,
  523517609922061934784,
  373674406070144213184,
  521212321068856123584,
  373674406070144213184,
  521212321068856123584,
  523517601265521795264,
  375979686266809884864,
  523517601265521795264,
  375979686266809884864,
  375979677335458947264,
  373674397413604073664,
  373674406070144213184,
  521212321068856123584,
  523517601265521795264,
  375979686266809884864,
  373674406070144204994,
  521212321068856115394,
  523517601265521787074,
  375979686266809876674,
  521212330000207052994,
  523517609922061926594,
  373674406070144204994,
  521212321068856115394,
  373674406070144204994,
  521212321068856115394,
  523517601265521787074,
  375979686266809876674,
  523517601265521787074,
  375979686266809876674,
  375979677335458939074,
  373674397413604065474,
  373674406070144204994,
  521212321068856115394,
  523517601265521787074,
  375979686266809876674,
  521212321206262046784,
  375979686129405009984,
  523517601128116920384,
  373674406207550136384,
  523517609922062458944,
  521212330000207585344,
  521212321206262046784,
  375979686129405009984,
  521212321068856647744,
  373674406070144737344,
  521212329862802186304,
  521212329862802186304,
  523517601265522319424,
  375979686266810409024,
  523517610059467857984,
  523517610059467857984,
  523517601128116920384,
  373674406207550136384,
  521212321206262046784,
  375979686129405009984,
  521212321206262046784,
  375979686129405009984,
  521212330000207585344,
  523517609922062458944,
  521212321068856647744,
  373674406070144737344,
  521212329862802186304,
  521212329862802186304,
  523517601265522319424,
  375979686266810409024,
  523517610059467857984,
  523517610059467857984,
  523517601128116920384,
  373674406207550136384,
  523517609922062458944,
  521212330000207585344,
  375979677335459471424,
  373674397413604597824,
  373674397413604597824,
  375979677335459471424,
  373674406207550136384,
  523517601128116920384,
  373674397276199198784,
  373674397276199198784,
  373674406070144737344,
  521212321068856647744,
  373674397413604597824,
  375979677335459471424,
  523517601128116920384,
  373674406207550136384,
  523517601265522319424,
  375979686266810409024,
  523517610059467857984,
  523517610059467857984,
  375979677335459471424,
  373674397413604597824,
  375979686129405009984,
  521212321206262046784,
  373674397413604597824,
  375979677335459471424,
  375979677335459463234,
  373674397413604589634,
  373674397413604589634,
  375979677335459463234,
  373674406207550128194,
  523517601128116912194,
  373674397276199190594,
  373674397276199190594,
  373674406070144729154,
  521212321068856639554,
  373674397413604589634,
  375979677335459463234,
  523517601128116912194,
  373674406207550128194,
  523517601265522311234,
  375979686266810400834,
  523517610059467849794,
  523517610059467849794,
  375979677335459463234,
  373674397413604589634,
  375979686129405001794,
  521212321206262038594,
  373674397413604589634,
  375979677335459463234,
  375979677335459471424,
  373674397413604597824,
  373674397413604597824,
  375979677335459471424,
  373674406207550136384,
  523517601128116920384,
  521212321068856647744,
  373674406070144737344,
  521212329862802186304,
  521212329862802186304,
  521212321206262046784,
  375979686129405009984,
  523517601128116920384,
  373674406207550136384,
  523517601265522319424,
  375979686266810409024,
  523517610059467857984,
  523517610059467857984,
  375979686129405009984,
  521212321206262046784,
  523517601265522319424,
  375979686266810409024,
  521212330000207585344,
  523517609922062458944,
  373674406070144737344,
  521212321068856647744,
  373674406070144737344,
  521212321068856647744,
  375979686129405009984,
  521212321206262046784,
  375979677472864870464,
  375979677472864870464,
  375979686266810409024,
  523517601265522319424,
  375979686129405001794,
  521212321206262038594,
  523517601265522311234,
  375979686266810400834,
  521212330000207577154,
  523517609922062450754,
  373674406070144729154,
  521212321068856639554,
  373674406070144729154,
  521212321068856639554,
  375979686129405001794,
  521212321206262038594,
  375979677472864862274,
  375979677472864862274,
  375979686266810400834,
  523517601265522311234,
  373674406070144213184,
  521212321068856123584,
  521212321206261522624,
  375979686129404485824,
  521212330000207061184,
  523517609922061934784,
  373674406070144213184,
  521212321068856123584,
  373674406070144213184,
  521212321068856123584,
  375979686129404485824,
  521212321206261522624,
  375979677472864346304,
  375979677472864346304,
  373674406207549612224,
  523517601128116396224,
  373674406070144204994,
  521212321068856115394,
  521212321206261514434,
  375979686129404477634,
  521212330000207052994,
  523517609922061926594,
  373674406070144204994,
  521212321068856115394,
  373674406070144204994,
  521212321068856115394,
  375979686129404477634,
  521212321206261514434,
  375979677472864338114,
  375979677472864338114,
  373674406207549604034,
  523517601128116388034,
  523517601265522319424,
  375979686266810409024,
  523517601265522311234,
  375979686266810400834,
  521212321206262046784,
  375979686129405009984,
  521212321206262038594,
  375979686129405001794,
  373674397413604597824,
  375979677335459471424,
  373674397413604589634,
  375979677335459463234,
  521212330000207585344,
  523517609922062458944,
  521212330000207577154,
  523517609922062450754,
  373674406207550136384,
  523517601128116920384,
  373674406207550128194,
  523517601128116912194,
  521212321068856647744,
  373674406070144737344,
  521212321068856639554,
  373674406070144729154,
  373674397276199198784,
  373674397276199198784,
  373674397276199190594,
  373674397276199190594,
  521212329862802186304,
  521212329862802186304,
  521212329862802178114,
  521212329862802178114,
  373674406070144737344,
  521212321068856647744,
  373674406070144729154,
  521212321068856639554,
  523517601265522319424,
  375979686266810409024]
def residQf2_aaaa_cert_4 : List Nat := [523517601265522311234,
  375979686266810400834,
  523517601265522319424,
  375979686266810409024,
  523517601265522311234,
  375979686266810400834,
  375979677472864870464,
  375979677472864870464,
  375979677472864862274,
  375979677472864862274,
  521212330000207585344,
  523517609922062458944,
  521212330000207577154,
  523517609922062450754,
  373674406207550136384,
  523517601128116920384,
  373674406207550128194,
  523517601128116912194,
  523517601128116920384,
  373674406207550136384,
  523517601128116912194,
  373674406207550128194,
  375979677335459471424,
  373674397413604597824,
  375979677335459463234,
  373674397413604589634,
  521212329862802186304,
  521212329862802186304,
  521212329862802178114,
  521212329862802178114,
  373674406070144737344,
  521212321068856647744,
  373674406070144729154,
  521212321068856639554,
  523517601265522319424,
  375979686266810409024,
  523517601265522311234,
  375979686266810400834,
  523517601265522319424,
  375979686266810409024,
  523517601265522311234,
  375979686266810400834,
  521212321206262046784,
  375979686129405009984,
  521212321206262038594,
  375979686129405001794,
  373674397413604597824,
  375979677335459471424,
  373674397413604589634,
  375979677335459463234,
  521212330000207585344,
  523517609922062458944,
  521212330000207577154,
  523517609922062450754,
  373674406207550136384,
  523517601128116920384,
  373674406207550128194,
  523517601128116912194,
  521212321068856647744,
  373674406070144737344,
  521212321068856639554,
  373674406070144729154,
  521212329862802186304,
  521212329862802186304,
  521212329862802178114,
  521212329862802178114,
  521212321068856647744,
  373674406070144737344,
  521212321068856639554,
  373674406070144729154,
  373674397276199198784,
  373674397276199198784,
  373674397276199190594,
  373674397276199190594,
  523517601128116920384,
  373674406207550136384,
  523517601128116912194,
  373674406207550128194,
  521212321206262046784,
  375979686129405009984,
  521212321206262038594,
  375979686129405001794,
  373674397413604597824,
  375979677335459471424,
  373674397413604589634,
  375979677335459463234,
  521212330000207585344,
  523517609922062458944,
  521212330000207577154,
  523517609922062450754,
  373674406207550136384,
  523517601128116920384,
  373674406207550128194,
  523517601128116912194,
  523517601128116920384,
  373674406207550136384,
  523517601128116912194,
  373674406207550128194,
  523517601265522319424,
  375979686266810409024,
  523517601265522311234,
  375979686266810400834,
  375979677472864870464,
  375979677472864870464,
  375979677472864862274,
  375979677472864862274,
  521212330000207585344,
  523517609922062458944,
  521212330000207577154,
  523517609922062450754,
  373674406207550136384,
  523517601128116920384,
  373674406207550128194,
  523517601128116912194,
  521212329862802186304,
  521212329862802186304,
  521212329862802178114,
  521212329862802178114,
  523517601128116920384,
  373674406207550136384,
  523517601128116912194,
  373674406207550128194,
  375979677335459471424,
  373674397413604597824,
  375979677335459463234,
  373674397413604589634,
  523517601128116920384,
  373674406207550136384,
  523517601128116912194,
  373674406207550128194,
  523517601265522319424,
  375979686266810409024,
  523517601265522311234,
  375979686266810400834,
  375979677472864870464,
  375979677472864870464,
  375979677472864862274,
  375979677472864862274,
  521212330000207585344,
  523517609922062458944,
  521212330000207577154,
  523517609922062450754,
  373674406207550136384,
  523517601128116920384,
  373674406207550128194,
  523517601128116912194,
  523517601128116920384,
  373674406207550136384,
  523517601128116912194,
  373674406207550128194,
  521212321068856647744,
  373674406070144737344,
  521212321068856639554,
  373674406070144729154,
  373674397276199198784,
  373674397276199198784,
  373674397276199190594,
  373674397276199190594,
  523517601128116920384,
  373674406207550136384,
  521212321206262046784,
  375979686129405009984,
  521212330000207585344,
  523517609922062458944,
  523517601128116920384,
  373674406207550136384,
  521212330000207061184,
  523517609922061934784,
  521212330000207585344,
  523517609922062458944,
  521212330000207061184,
  523517609922061934784,
  523517601128116920384,
  373674406207550136384,
  523517601128116396224,
  373674406207549612224,
  523517601128116920384,
  373674406207550136384,
  521212330000207061184,
  523517609922061934784,
  523517601128116920384,
  373674406207550136384,
  523517601128116912194,
  373674406207550128194,
  373674406207550136384,
  523517601128116920384,
  373674406207550128194,
  523517601128116912194,
  373674406207550136384,
  523517601128116920384,
  373674406207550128194,
  523517601128116912194,
  373674406207550136384,
  523517601128116920384,
  373674406207550128194,
  523517601128116912194,
  523517601128116920384,
  373674406207550136384,
  523517601128116912194,
  373674406207550128194,
  373674397276199198784,
  373674397276199198784,
  373674397276199190594,
  373674397276199190594,
  521212329862802186304,
  521212329862802186304,
  521212329862802178114,
  521212329862802178114,
  521212321068856647744,
  373674406070144737344,
  521212321068856639554,
  373674406070144729154,
  373674406207550136384,
  523517601128116920384,
  373674406207550128194,
  523517601128116912194,
  523517601128116920384,
  373674406207550136384,
  373674406207550136384,
  523517601128116920384,
  373674406207550136384,
  523517601128116920384,
  373674406207550136384,
  523517601128116920384,
  523517601128116920384,
  373674406207550136384,
  523517601128116912194,
  373674406207550128194,
  523517601128116396224,
  373674406207549612224,
  523517601128116388034,
  373674406207549604034,
  373674406207550136384,
  523517601128116920384,
  373674406207550128194,
  523517601128116912194,
  373674406207549612224,
  523517601128116396224,
  373674406207549604034,
  523517601128116388034,
  375979677472864870464,
  375979677472864870464,
  375979677472864862274,
  375979677472864862274,
  375979677472864346304,
  375979677472864346304,
  375979677472864338114,
  375979677472864338114,
  373674406207550136384,
  523517601128116920384,
  373674406207550128194,
  523517601128116912194,
  373674406207549612224,
  523517601128116396224,
  373674406207549604034,
  523517601128116388034,
  373674406207550136384,
  523517601128116920384,
  373674406207550128194,
  523517601128116912194,
  373674406207549612224,
  523517601128116396224,
  373674406207549604034,
  523517601128116388034,
  523517601128116920384,
  373674406207550136384,
  523517601128116912194,
  373674406207550128194,
  523517601128116396224,
  373674406207549612224,
  523517601128116388034,
  373674406207549604034,
  523517601128116920384,
  373674406207550136384,
  523517601128116912194,
  373674406207550128194,
  523517601128116396224,
  373674406207549612224,
  523517601128116388034,
  373674406207549604034,
  521212329862802186304,
  521212329862802186304,
  521212329862802178114,
  521212329862802178114,
  521212329862801662144,
  521212329862801662144,
  521212329862801653954,
  521212329862801653954,
  523517601128116920384,
  373674406207550136384,
  523517601128116912194,
  373674406207550128194,
  523517601128116396224,
  373674406207549612224,
  523517601128116388034,
  373674406207549604034,
  373674406207550136384,
  523517601128116920384,
  373674406207550128194,
  523517601128116912194,
  373674406207549612224,
  523517601128116396224,
  373674406207549604034,
  523517601128116388034,
  523517601128116920384,
  373674406207550136384,
  523517601128116396224,
  373674406207549612224,
  373674406207550136384,
  523517601128116920384,
  373674406207549612224,
  523517601128116396224,
  375979677472864870464,
  375979677472864870464,
  375979677472864346304,
  375979677472864346304,
  373674406207550136384,
  523517601128116920384,
  373674406207549612224,
  523517601128116396224,
  373674406207550136384,
  523517601128116920384,
  373674406207549612224,
  523517601128116396224,
  523517601128116920384,
  373674406207550136384,
  523517601128116396224,
  373674406207549612224,
  373674397276199198784,
  373674397276199198784,
  373674397276198674624,
  373674397276198674624,
  375979677335459471424,
  373674397413604597824,
  375979677335458947264,
  373674397413604073664,
  373674406207550136384,
  523517601128116920384,
  373674406207549612224,
  523517601128116396224,
  375979686266810409024,
  523517601265522319424,
  375979686266810400834,
  523517601265522311234,
  373674406207550136384,
  523517601128116920384,
  373674406207550128194,
  523517601128116912194,
  523517601265522319424,
  375979686266810409024,
  523517601265522311234,
  375979686266810400834,
  373674397413604597824,
  375979677335459471424,
  373674397413604589634,
  375979677335459463234,
  521212330000207585344,
  523517609922062458944,
  521212330000207577154,
  523517609922062450754,
  523517601128116920384,
  373674406207550136384,
  523517601128116912194,
  373674406207550128194,
  373674397276199198784,
  373674397276199198784,
  373674397276199190594,
  373674397276199190594,
  521212329862802186304,
  521212329862802186304,
  521212329862802178114,
  521212329862802178114,
  521212321206262046784,
  375979686129405009984,
  521212321206262038594,
  375979686129405001794,
  375979686129405009984,
  521212321206262046784,
  523517601128116912194,
  373674406207550128194,
  373674406070144737344,
  521212321068856647744,
  373674406070144729154,
  521212321068856639554,
  523517601265522319424,
  375979686266810409024,
  523517601265522311234,
  375979686266810400834,
  373674397413604597824,
  375979677335459471424,
  373674397413604589634,
  375979677335459463234,
  521212330000207585344,
  523517609922062458944,
  521212330000207577154,
  523517609922062450754,
  523517601265522319424,
  375979686266810409024,
  523517601265522311234,
  375979686266810400834]
def residQf2_aaaa_cert_5 : List Nat := [523517601265521795264,
  375979686266809884864,
  523517601265521787074,
  375979686266809876674,
  373674406207550136384,
  523517601128116920384,
  373674406207550128194,
  523517601128116912194,
  373674406207549612224,
  523517601128116396224,
  373674406207549604034,
  523517601128116388034,
  523517601265522319424,
  375979686266810409024,
  523517601265522311234,
  375979686266810400834,
  523517601265521795264,
  375979686266809884864,
  523517601265521787074,
  375979686266809876674,
  523517601265522319424,
  375979686266810409024,
  523517601265522311234,
  375979686266810400834,
  523517601265521795264,
  375979686266809884864,
  523517601265521787074,
  375979686266809876674,
  521212330000207585344,
  523517609922062458944,
  521212330000207577154,
  523517609922062450754,
  521212330000207061184,
  523517609922061934784,
  521212330000207052994,
  523517609922061926594,
  523517601128116920384,
  373674406207550136384,
  523517601128116912194,
  373674406207550128194,
  523517601128116396224,
  373674406207549612224,
  523517601128116388034,
  373674406207549604034,
  523517601128116920384,
  373674406207550136384,
  523517601128116912194,
  373674406207550128194,
  523517601128116396224,
  373674406207549612224,
  523517601128116388034,
  373674406207549604034,
  521212329862802186304,
  521212329862802186304,
  521212329862802178114,
  521212329862802178114,
  521212329862801662144,
  521212329862801662144,
  521212329862801653954,
  521212329862801653954,
  523517601128116920384,
  373674406207550136384,
  523517601128116912194,
  373674406207550128194,
  523517601265521795264,
  375979686266809884864,
  523517601265521787074,
  375979686266809876674,
  373674406070144737344,
  521212321068856647744,
  373674406070144729154,
  521212321068856639554,
  373674406207549612224,
  523517601128116396224,
  373674406207549604034,
  523517601128116388034,
  523517601265522319424,
  375979686266810409024,
  523517601265522311234,
  375979686266810400834,
  523517601265521795264,
  375979686266809884864,
  523517601265521787074,
  375979686266809876674,
  523517601265522319424,
  375979686266810409024,
  523517601265522311234,
  375979686266810400834,
  523517601265521795264,
  375979686266809884864,
  523517601265521787074,
  375979686266809876674,
  521212330000207585344,
  523517609922062458944,
  521212330000207577154,
  523517609922062450754,
  521212330000207061184,
  523517609922061934784,
  521212330000207052994,
  523517609922061926594,
  523517601128116920384,
  373674406207550136384,
  523517601128116912194,
  373674406207550128194,
  523517601128116396224,
  373674406207549612224,
  523517601128116388034,
  373674406207549604034,
  373674397276199198784,
  373674397276199198784,
  373674397276199190594,
  373674397276199190594,
  373674397276198674624,
  373674397276198674624,
  373674397276198666434,
  373674397276198666434,
  521212321068856647744,
  373674406070144737344,
  521212321068856639554,
  373674406070144729154,
  521212321206261522624,
  375979686129404485824,
  521212321206261514434,
  375979686129404477634,
  521212321206262046784,
  375979686129405009984,
  373674406207550136384,
  523517601128116920384,
  373674406070144737344,
  521212321068856647744,
  523517601265522319424,
  375979686266810409024,
  523517601265522311234,
  375979686266810400834,
  521212321206261522624,
  375979686129404485824,
  521212321206261514434,
  375979686129404477634,
  521212321206262046784,
  375979686129405009984,
  521212321206262038594,
  375979686129405001794,
  521212321206261522624,
  375979686129404485824,
  521212321206261514434,
  375979686129404477634,
  375979677472864870464,
  375979677472864870464,
  375979677472864862274,
  375979677472864862274,
  375979677472864346304,
  375979677472864346304,
  375979677472864338114,
  375979677472864338114,
  523517601265522319424,
  375979686266810409024,
  523517601265522311234,
  375979686266810400834,
  521212321206261522624,
  375979686129404485824,
  521212321206261514434,
  375979686129404477634,
  375979686266810409024,
  523517601265522319424,
  375979686266810400834,
  523517601265522311234,
  373674406207549612224,
  523517601128116396224,
  373674406207549604034,
  523517601128116388034,
  521212330000207585344,
  523517609922062458944,
  521212330000207577154,
  523517609922062450754,
  521212330000207061184,
  523517609922061934784,
  521212330000207052994,
  523517609922061926594,
  375979677335459471424,
  373674397413604597824,
  375979677335459463234,
  373674397413604589634,
  375979677335458947264,
  373674397413604073664,
  375979677335458939074,
  373674397413604065474,
  523517601128116920384,
  373674406207550136384,
  523517601128116912194,
  373674406207550128194,
  521212321068856123584,
  373674406070144213184,
  521212321068856115394,
  373674406070144204994,
  375979686129405009984,
  521212321206262046784,
  375979686129405001794,
  521212321206262038594,
  373674406070144213184,
  521212321068856123584,
  373674406070144204994,
  521212321068856115394,
  521212329862802186304,
  521212329862802186304,
  521212329862802178114,
  521212329862802178114,
  521212329862801662144,
  521212329862801662144,
  521212329862801653954,
  521212329862801653954,
  375979686266810409024,
  523517601265522319424,
  375979686266810400834,
  523517601265522311234,
  375979686266809884864,
  523517601265521795264,
  375979686266809876674,
  523517601265521787074,
  375979686266810409024,
  523517601265522319424,
  375979686266810400834,
  523517601265522311234,
  373674406207549612224,
  523517601128116396224,
  373674406207549604034,
  523517601128116388034,
  521212321206262046784,
  375979686129405009984,
  521212321206261522624,
  375979686129404485824,
  373674397413604597824,
  375979677335459471424,
  373674397413604073664,
  375979677335458947264,
  375979677472864870464,
  375979677472864870464,
  375979677472864346304,
  375979677472864346304,
  373674406207550136384,
  523517601128116920384,
  373674406207549612224,
  523517601128116396224,
  373674397276199198784,
  373674397276199198784,
  373674397276198674624,
  373674397276198674624,
  375979677335459471424,
  373674397413604597824,
  375979677335458947264,
  373674397413604073664,
  373674406070144737344,
  521212321068856647744,
  373674406070144213184,
  521212321068856123584,
  373674406207550136384,
  523517601128116920384,
  373674406207549612224,
  523517601128116396224,
  375979686266810409024,
  523517601265522319424,
  375979686266809884864,
  523517601265521795264,
  375979686266810409024,
  523517601265522319424,
  375979686266810400834,
  523517601265522311234,
  521212321068856647744,
  373674406070144737344,
  521212321068856639554,
  373674406070144729154,
  373674397413604597824,
  375979677335459471424,
  373674397413604589634,
  375979677335459463234,
  375979686266810409024,
  523517601265522319424,
  375979686266810400834,
  523517601265522311234,
  521212330000207585344,
  523517609922062458944,
  521212330000207577154,
  523517609922062450754,
  521212321068856647744,
  373674406070144737344,
  521212321068856639554,
  373674406070144729154,
  521212321068856647744,
  373674406070144737344,
  521212321068856639554,
  373674406070144729154,
  373674406207550136384,
  523517601128116920384,
  373674406207550128194,
  523517601128116912194,
  521212321068856647744,
  373674406070144737344,
  521212321068856639554,
  373674406070144729154,
  373674406207550136384,
  523517601128116920384,
  521212321068856639554,
  373674406070144729154,
  373674406207550136384,
  523517601128116920384,
  373674406207550128194,
  523517601128116912194,
  521212321068856647744,
  373674406070144737344,
  521212321068856639554,
  373674406070144729154,
  373674406207550136384,
  523517601128116920384,
  521212321068856639554,
  373674406070144729154,
  523517601128116920384,
  373674406207550136384,
  523517601128116912194,
  373674406207550128194,
  521212321068856123584,
  373674406070144213184,
  521212321068856115394,
  373674406070144204994,
  521212321068856647744,
  373674406070144737344,
  521212321068856639554,
  373674406070144729154,
  521212321068856123584,
  373674406070144213184,
  521212321068856115394,
  373674406070144204994,
  375979677472864870464,
  375979677472864870464,
  375979677472864862274,
  375979677472864862274,
  375979677472864346304,
  375979677472864346304,
  375979677472864338114,
  375979677472864338114,
  523517601265522319424,
  375979686266810409024,
  523517601265522311234,
  375979686266810400834,
  521212321206261522624,
  375979686129404485824,
  521212321206261514434,
  375979686129404477634,
  375979686266810409024,
  523517601265522319424,
  375979686266810400834,
  523517601265522311234,
  373674406207549612224,
  523517601128116396224,
  373674406207549604034,
  523517601128116388034,
  521212330000207585344,
  523517609922062458944,
  521212330000207577154,
  523517609922062450754,
  521212330000207061184,
  523517609922061934784,
  521212330000207052994,
  523517609922061926594,
  523517601128116920384,
  373674406207550136384,
  523517601128116912194,
  373674406207550128194,
  523517601128116396224,
  373674406207549612224,
  523517601128116388034,
  373674406207549604034,
  523517601128116920384,
  373674406207550136384,
  523517601128116912194,
  373674406207550128194,
  523517601128116396224,
  373674406207549612224,
  523517601128116388034,
  373674406207549604034,
  523517601128116920384,
  373674406207550136384,
  523517601128116912194,
  373674406207550128194,
  521212321068856123584,
  373674406070144213184,
  521212321068856115394,
  373674406070144204994,
  521212321068856647744,
  373674406070144737344,
  521212321068856639554,
  373674406070144729154,
  521212321068856123584,
  373674406070144213184,
  521212321068856115394,
  373674406070144204994,
  375979677472864870464,
  375979677472864870464,
  375979677472864862274,
  375979677472864862274,
  375979677472864346304,
  375979677472864346304]
def residQf2_aaaa_cert_6 : List Nat := [375979677472864338114,
  375979677472864338114,
  523517601265522319424,
  375979686266810409024,
  523517601265522311234,
  375979686266810400834,
  521212321206261522624,
  375979686129404485824,
  521212321206261514434,
  375979686129404477634,
  375979686266810409024,
  523517601265522319424,
  375979686266810400834,
  523517601265522311234,
  373674406207549612224,
  523517601128116396224,
  373674406207549604034,
  523517601128116388034,
  521212330000207585344,
  523517609922062458944,
  521212330000207577154,
  523517609922062450754,
  521212330000207061184,
  523517609922061934784,
  521212330000207052994,
  523517609922061926594,
  523517601128116920384,
  373674406207550136384,
  523517601128116912194,
  373674406207550128194,
  523517601128116396224,
  373674406207549612224,
  523517601128116388034,
  373674406207549604034,
  521212321068856647744,
  373674406070144737344,
  521212321068856639554,
  373674406070144729154,
  521212321068856123584,
  373674406070144213184,
  521212321068856115394,
  373674406070144204994,
  375979677335459471424,
  373674397413604597824,
  375979677335459463234,
  373674397413604589634,
  375979677335458947264,
  373674397413604073664,
  375979677335458939074,
  373674397413604065474,
  521212321068856647744,
  373674406070144737344,
  521212321068856639554,
  373674406070144729154,
  521212321068856123584,
  373674406070144213184,
  521212321068856115394,
  373674406070144204994,
  521212321068856647744,
  373674406070144737344,
  521212321068856639554,
  373674406070144729154,
  521212321068856123584,
  373674406070144213184,
  521212321068856115394,
  373674406070144204994,
  373674397413604597824,
  375979677335459471424,
  373674397413604589634,
  375979677335459463234,
  373674397413604073664,
  375979677335458947264,
  373674397413604065474,
  375979677335458939074,
  375979677472864870464,
  375979677472864870464,
  375979677472864862274,
  375979677472864862274,
  375979677472864346304,
  375979677472864346304,
  375979677472864338114,
  375979677472864338114,
  373674406207550136384,
  523517601128116920384,
  373674406207550128194,
  523517601128116912194,
  373674406207549612224,
  523517601128116396224,
  373674406207549604034,
  523517601128116388034,
  521212321068856647744,
  373674406070144737344,
  521212321068856639554,
  373674406070144729154,
  521212321068856123584,
  373674406070144213184,
  521212321068856115394,
  373674406070144204994,
  523517601128116920384,
  373674406207550136384,
  523517601128116912194,
  373674406207550128194,
  523517601128116396224,
  373674406207549612224,
  523517601128116388034,
  373674406207549604034,
  521212321068856647744,
  373674406070144737344,
  521212321068856639554,
  373674406070144729154,
  521212321068856123584,
  373674406070144213184,
  521212321068856115394,
  373674406070144204994,
  523517601128116920384,
  373674406207550136384,
  523517601128116912194,
  373674406207550128194,
  523517601128116396224,
  373674406207549612224,
  523517601128116388034,
  373674406207549604034,
  523517601128116920384,
  373674406207550136384,
  521212321206261522624,
  375979686129404485824,
  521212321206262046784,
  375979686129405009984,
  521212321206261522624,
  375979686129404485824,
  523517601265522319424,
  375979686266810409024,
  523517601265521795264,
  375979686266809884864,
  523517601128116920384,
  373674406207550136384,
  523517601128116396224,
  373674406207549612224,
  521212321068856647744,
  373674406070144737344,
  521212321068856123584,
  373674406070144213184,
  521212321206262046784,
  375979686129405009984,
  521212321206261522624,
  375979686129404485824,
  521212321206262046784,
  375979686129405009984,
  521212321206261522624,
  375979686129404485824,
  523517601265522319424,
  375979686266810409024,
  523517601265521795264,
  375979686266809884864,
  521212321068856647744,
  373674406070144737344,
  521212321068856123584,
  373674406070144213184,
  523517601128116920384,
  373674406207550136384,
  523517601128116396224,
  373674406207549612224,
  521212321068856647744,
  373674406070144737344,
  521212321068856639554,
  373674406070144729154,
  373674397413604597824,
  375979677335459471424,
  373674397413604589634,
  375979677335459463234,
  375979677472864870464,
  375979677472864870464,
  375979677472864862274,
  375979677472864862274,
  375979686266810409024,
  523517601265522319424,
  375979686266810400834,
  523517601265522311234,
  523517601128116920384,
  373674406207550136384,
  523517601128116912194,
  373674406207550128194,
  521212321068856647744,
  373674406070144737344,
  521212321068856639554,
  373674406070144729154,
  523517609922062458944,
  521212330000207585344,
  523517609922062450754,
  521212330000207577154,
  521212329862802186304,
  521212329862802186304,
  521212329862802178114,
  521212329862802178114,
  521212321206262046784,
  375979686129405009984,
  373674397413604597824,
  375979677335459471424,
  375979677472864870464,
  375979677472864870464,
  375979686266810409024,
  523517601265522319424,
  523517601128116920384,
  373674406207550136384,
  373674397276199198784,
  373674397276199198784,
  523517609922062458944,
  521212330000207585344,
  373674406070144737344,
  521212321068856647744,
  375979677335459471424,
  373674397413604597824,
  521212321206262046784,
  375979686129405009984,
  521212321206262038594,
  375979686129405001794,
  373674397413604597824,
  375979677335459471424,
  373674397413604589634,
  375979677335459463234,
  523517601265522319424,
  375979686266810409024,
  523517601265522311234,
  375979686266810400834,
  521212321206262046784,
  375979686129405009984,
  521212321206262038594,
  375979686129405001794,
  523517610059467857984,
  523517610059467857984,
  523517610059467849794,
  523517610059467849794,
  521212330000207585344,
  523517609922062458944,
  521212330000207577154,
  523517609922062450754,
  523517601128116920384,
  373674406207550136384,
  523517601128116912194,
  373674406207550128194,
  521212321068856647744,
  373674406070144737344,
  521212321068856639554,
  373674406070144729154,
  523517609922062458944,
  521212330000207585344,
  523517609922062450754,
  521212330000207577154,
  521212329862802186304,
  521212329862802186304,
  521212329862802178114,
  521212329862802178114,
  521212321206262046784,
  375979686129405009984,
  521212321206262038594,
  375979686129405001794,
  373674397413604597824,
  375979677335459471424,
  373674397413604589634,
  375979677335459463234,
  523517601265522319424,
  375979686266810409024,
  523517601265522311234,
  375979686266810400834,
  521212321206262046784,
  375979686129405009984,
  521212321206262038594,
  375979686129405001794,
  523517610059467857984,
  523517610059467857984,
  523517610059467849794,
  523517610059467849794,
  521212330000207585344,
  523517609922062458944,
  521212330000207577154,
  523517609922062450754,
  523517601128116920384,
  373674406207550136384,
  523517601128116912194,
  373674406207550128194,
  373674397276199198784,
  373674397276199198784,
  373674397276199190594,
  373674397276199190594,
  523517609922062458944,
  521212330000207585344,
  523517609922062450754,
  521212330000207577154,
  373674406070144737344,
  521212321068856647744,
  373674406070144729154,
  521212321068856639554,
  523517601128116920384,
  373674406207550136384,
  523517601128116912194,
  373674406207550128194,
  523517601128116920384,
  373674406207550136384,
  523517601128116912194,
  373674406207550128194,
  521212321206262046784,
  375979686129405009984,
  521212321206262038594,
  375979686129405001794,
  521212321206262046784,
  375979686129405009984,
  521212321206262038594,
  375979686129405001794,
  375979677472864870464,
  375979677472864870464,
  375979677472864862274,
  375979677472864862274,
  521212321206262046784,
  375979686129405009984,
  521212321206262038594,
  375979686129405001794,
  375979686266810409024,
  523517601265522319424,
  375979686266810400834,
  523517601265522311234,
  521212330000207585344,
  523517609922062458944,
  521212330000207577154,
  523517609922062450754,
  375979677335459471424,
  373674397413604597824,
  375979677335459463234,
  373674397413604589634,
  521212321068856647744,
  373674406070144737344,
  521212321068856639554,
  373674406070144729154,
  375979686129405009984,
  521212321206262046784,
  375979686129405001794,
  521212321206262038594,
  521212329862802186304,
  521212329862802186304,
  521212329862802178114,
  521212329862802178114,
  521212321206262046784,
  375979686129405009984,
  373674397413604597824,
  375979677335459471424,
  375979677472864870464,
  375979677472864870464,
  373674406207550136384,
  523517601128116920384,
  375979686266810409024,
  523517601265522319424,
  373674397276199198784,
  373674397276199198784,
  375979677335459471424,
  373674397413604597824,
  373674406070144737344,
  521212321068856647744,
  375979686129405009984,
  521212321206262046784,
  521212321068856647744,
  373674406070144737344,
  521212321068856639554,
  373674406070144729154,
  521212321068856647744,
  373674406070144737344,
  521212321068856639554,
  373674406070144729154,
  375979677472864870464,
  375979677472864870464,
  375979677472864862274,
  375979677472864862274,
  521212321206262046784,
  375979686129405009984,
  521212321206262038594,
  375979686129405001794,
  375979686266810409024,
  523517601265522319424,
  375979686266810400834,
  523517601265522311234,
  521212330000207585344,
  523517609922062458944,
  521212330000207577154,
  523517609922062450754,
  523517601128116920384,
  373674406207550136384,
  523517601128116912194,
  373674406207550128194,
  523517609922062458944,
  521212330000207585344,
  523517609922062450754,
  521212330000207577154,
  521212321206262046784,
  375979686129405009984,
  521212321206262038594,
  375979686129405001794,
  521212321206262046784,
  375979686129405009984,
  521212321206262038594,
  375979686129405001794,
  375979677472864870464,
  375979677472864870464]
def residQf2_aaaa_cert_7 : List Nat := [375979677472864862274,
  375979677472864862274,
  521212321206262046784,
  375979686129405009984,
  521212321206262038594,
  375979686129405001794,
  375979686266810409024,
  523517601265522319424,
  375979686266810400834,
  523517601265522311234,
  521212330000207585344,
  523517609922062458944,
  521212330000207577154,
  523517609922062450754,
  523517601128116920384,
  373674406207550136384,
  523517601128116912194,
  373674406207550128194,
  521212321068856647744,
  373674406070144737344,
  521212321068856639554,
  373674406070144729154,
  523517609922062458944,
  521212330000207585344,
  523517609922062450754,
  521212330000207577154,
  521212329862802186304,
  521212329862802186304,
  521212329862802178114,
  521212329862802178114,
  375979677335459471424,
  373674397413604597824,
  375979677335459463234,
  373674397413604589634,
  523517601128116920384,
  373674406207550136384,
  523517601128116912194,
  373674406207550128194,
  521212321068856647744,
  373674406070144737344,
  521212321068856639554,
  373674406070144729154,
  373674397413604597824,
  375979677335459471424,
  373674397413604589634,
  375979677335459463234,
  375979677472864870464,
  375979677472864870464,
  375979677472864862274,
  375979677472864862274,
  373674406207550136384,
  523517601128116920384,
  373674406207550128194,
  523517601128116912194,
  375979686266810409024,
  523517601265522319424,
  375979686266810400834,
  523517601265522311234,
  521212321068856647744,
  373674406070144737344,
  521212321068856639554,
  373674406070144729154,
  523517601128116920384,
  373674406207550136384,
  523517601128116912194,
  373674406207550128194,
  521212329862802186304,
  521212329862802186304,
  521212329862802178114,
  521212329862802178114,
  523517609922062458944,
  521212330000207585344,
  523517609922062450754,
  521212330000207577154,
  521212321068856647744,
  373674406070144737344,
  521212321068856639554,
  373674406070144729154,
  373674406070144737344,
  521212321068856647744,
  373674406070144729154,
  521212321068856639554,
  373674406070144213184,
  521212321068856123584,
  373674406070144204994,
  521212321068856115394,
  523517601265522319424,
  375979686266810409024,
  523517601265522311234,
  375979686266810400834,
  523517601265521795264,
  375979686266809884864,
  523517601265521787074,
  375979686266809876674,
  523517601265522319424,
  375979686266810409024,
  523517601265522311234,
  375979686266810400834,
  523517601265521795264,
  375979686266809884864,
  523517601265521787074,
  375979686266809876674,
  523517601265522319424,
  375979686266810409024,
  523517601265522311234,
  375979686266810400834,
  523517601265521795264,
  375979686266809884864,
  523517601265521787074,
  375979686266809876674,
  521212330000207585344,
  523517609922062458944,
  521212330000207577154,
  523517609922062450754,
  521212330000207061184,
  523517609922061934784,
  521212330000207052994,
  523517609922061926594,
  375979677335459471424,
  373674397413604597824,
  375979677335459463234,
  373674397413604589634,
  375979677335458947264,
  373674397413604073664,
  375979677335458939074,
  373674397413604065474,
  373674406070144737344,
  521212321068856647744,
  373674406070144729154,
  521212321068856639554,
  373674406070144213184,
  521212321068856123584,
  373674406070144204994,
  521212321068856115394,
  373674406070144737344,
  521212321068856647744,
  373674406070144729154,
  521212321068856639554,
  373674406070144213184,
  521212321068856123584,
  373674406070144204994,
  521212321068856115394,
  373674406070144737344,
  521212321068856647744,
  373674406070144729154,
  521212321068856639554,
  373674406070144213184,
  521212321068856123584,
  373674406070144204994,
  521212321068856115394,
  523517601265522319424,
  375979686266810409024,
  523517601265522311234,
  375979686266810400834,
  523517601265521795264,
  375979686266809884864,
  523517601265521787074,
  375979686266809876674,
  521212321206262046784,
  375979686129405009984,
  521212321206262046784,
  375979686129405009984,
  523517601265522319424,
  375979686266810409024,
  523517610059467857984,
  523517610059467857984,
  523517601128116920384,
  373674406207550136384,
  521212321068856647744,
  373674406070144737344,
  523517609922062458944,
  521212330000207585344,
  521212329862802186304,
  521212329862802186304,
  523517601128116920384,
  373674406207550136384,
  521212321206262046784,
  375979686129405009984,
  521212321206262046784,
  375979686129405009984,
  523517601265522319424,
  375979686266810409024,
  521212330000207585344,
  523517609922062458944,
  523517610059467857984,
  523517610059467857984,
  521212321068856647744,
  373674406070144737344,
  523517601128116920384,
  373674406207550136384,
  521212329862802186304,
  521212329862802186304,
  523517609922062458944,
  521212330000207585344,
  375979677335459471424,
  373674397413604597824,
  375979677335459463234,
  373674397413604589634,
  523517601128116920384,
  373674406207550136384,
  523517601128116912194,
  373674406207550128194,
  373674397413604597824,
  375979677335459471424,
  373674397413604589634,
  375979677335459463234,
  523517601265522319424,
  375979686266810409024,
  523517601265522311234,
  375979686266810400834,
  373674406207550136384,
  523517601128116920384,
  373674406207550128194,
  523517601128116912194,
  523517610059467857984,
  523517610059467857984,
  523517610059467849794,
  523517610059467849794,
  373674397276199198784,
  373674397276199198784,
  373674397276199190594,
  373674397276199190594,
  375979677335459471424,
  373674397413604597824,
  375979677335459463234,
  373674397413604589634,
  373674406070144737344,
  521212321068856647744,
  373674406070144729154,
  521212321068856639554,
  375979686129405009984,
  521212321206262046784,
  375979686129405001794,
  521212321206262038594,
  373674397413604597824,
  375979677335459471424,
  373674397413604589634,
  375979677335459463234,
  373674397413604597824,
  375979677335459471424,
  373674397413604589634,
  375979677335459463234,
  375979677335459471424,
  373674397413604597824,
  523517601128116920384,
  373674406207550136384,
  373674397413604597824,
  375979677335459471424,
  523517601265522319424,
  375979686266810409024,
  373674406207550136384,
  523517601128116920384,
  523517610059467857984,
  523517610059467857984,
  521212321068856647744,
  373674406070144737344,
  521212329862802186304,
  521212329862802186304,
  521212321206262046784,
  375979686129405009984,
  375979686129405009984,
  521212321206262046784,
  375979686129405001794,
  521212321206262038594,
  373674406070144213184,
  521212321068856123584,
  373674406070144204994,
  521212321068856115394,
  375979686129405009984,
  521212321206262046784,
  375979686129405001794,
  521212321206262038594,
  375979686129404485824,
  521212321206261522624,
  375979686129404477634,
  521212321206261514434,
  523517601265522319424,
  375979686266810409024,
  523517601265522311234,
  375979686266810400834,
  521212321206261522624,
  375979686129404485824,
  521212321206261514434,
  375979686129404477634,
  375979677472864870464,
  375979677472864870464,
  375979677472864862274,
  375979677472864862274,
  375979677472864346304,
  375979677472864346304,
  375979677472864338114,
  375979677472864338114,
  521212330000207585344,
  523517609922062458944,
  521212330000207577154,
  523517609922062450754,
  521212330000207061184,
  523517609922061934784,
  521212330000207052994,
  523517609922061926594,
  375979686266810409024,
  523517601265522319424,
  375979686266810400834,
  523517601265522311234,
  373674406207549612224,
  523517601128116396224,
  373674406207549604034,
  523517601128116388034,
  373674406070144737344,
  521212321068856647744,
  373674406070144729154,
  521212321068856639554,
  373674406070144213184,
  521212321068856123584,
  373674406070144204994,
  521212321068856115394,
  373674406070144737344,
  521212321068856647744,
  373674406070144729154,
  521212321068856639554,
  373674406070144213184,
  521212321068856123584,
  373674406070144204994,
  521212321068856115394]

/-- Check residQf2_aaaa.  -/
theorem residQf2_aaaa : isZeroSpin kinds [aᵥ, bᵥ, iₒ, jₒ] 100000000000000 [false, false, false, false]
    (residQf2)
    (Prog.scale (-1) (residQf2_aaaa))
    (residQf2_aaaa_cert_0 ++ (residQf2_aaaa_cert_1 ++ (residQf2_aaaa_cert_2 ++ (residQf2_aaaa_cert_3 ++ (residQf2_aaaa_cert_4 ++ (residQf2_aaaa_cert_5 ++ (residQf2_aaaa_cert_6 ++ (residQf2_aaaa_cert_7)))))))) = true := by decide +kernel

end Verif.Cert
