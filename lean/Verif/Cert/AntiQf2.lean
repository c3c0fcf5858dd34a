import Verif.Ein.Ops2
import Verif.Gen.Qf

/-! Written by `/verif/tools/gen.py`. Checks of einsum programs. -/

set_option maxRecDepth 100000

namespace Verif.Cert

open Verif.Ein Verif.Ein.N


open Verif.Gen

def residQf2_anti0_cert_0 : List Nat := [523517601265522319424,
  375979686266810409024,
  523517601265522311234,
  375979686266810400834,
  523517601265522319424,
  375979686266810409024,
  523517601265522311234,
  375979686266810400834,
  523517601265522319424,
  375979686266810409024,
  523517601265522311234,
  375979686266810400834,
  523517601128116920384,
  373674406207550136384,
  523517601128116912194,
  373674406207550128194,
  523517601128116920384,
  373674406207550136384,
  523517601128116912194,
  373674406207550128194,
  523517601128116920384,
  373674406207550136384,
  523517601128116912194,
  373674406207550128194,
  523517601128116920384,
  373674406207550136384,
  523517601128116920384,
  373674406207550136384,
  521212330000207061184,
  523517609922061934784,
  523517601128116920384,
  373674406207550136384,
  523517601128116912194,
  373674406207550128194,
  523517601128116920384,
  373674406207550136384,
  523517601128116920384,
  373674406207550136384,
  523517601128116912194,
  373674406207550128194,
  523517601128116396224,
  373674406207549612224,
  523517601128116388034,
  373674406207549604034,
  523517601128116920384,
  373674406207550136384,
  523517601128116396224,
  373674406207549612224,
  375979686266810409024,
  523517601265522319424,
  375979686266810400834,
  523517601265522311234,
  375979686129405009984,
  521212321206262046784,
  523517601128116912194,
  373674406207550128194,
  523517601265522319424,
  375979686266810409024,
  523517601265522311234,
  375979686266810400834,
  523517601265521795264,
  375979686266809884864,
  523517601265521787074,
  375979686266809876674,
  523517601128116920384,
  373674406207550136384,
  523517601128116912194,
  373674406207550128194,
  523517601265521795264,
  375979686266809884864,
  523517601265521787074,
  375979686266809876674,
  521212321206262046784,
  375979686129405009984,
  523517601265522319424,
  375979686266810409024,
  523517601265522311234,
  375979686266810400834,
  521212321206261522624,
  375979686129404485824,
  521212321206261514434,
  375979686129404477634,
  521212321206262046784,
  375979686129405009984,
  521212321206261522624,
  375979686129404485824,
  375979686266810409024,
  523517601265522319424,
  375979686266810400834,
  523517601265522311234,
  373674406207550136384,
  523517601128116920384,
  521212321068856639554,
  373674406070144729154,
  523517601128116920384,
  373674406207550136384,
  523517601128116912194,
  373674406207550128194,
  521212321068856123584,
  373674406070144213184,
  521212321068856115394,
  373674406070144204994,
  523517601128116920384,
  373674406207550136384,
  523517601128116912194,
  373674406207550128194,
  521212321068856123584,
  373674406070144213184,
  521212321068856115394,
  373674406070144204994,
  521212321068856647744,
  373674406070144737344,
  521212321068856639554,
  373674406070144729154,
  521212321068856123584,
  373674406070144213184,
  521212321068856115394,
  373674406070144204994,
  523517601128116920384,
  373674406207550136384,
  521212321206261522624,
  375979686129404485824,
  521212321206262046784,
  375979686129405009984,
  521212321206261522624,
  375979686129404485824,
  521212321068856647744,
  373674406070144737344,
  521212321068856639554,
  373674406070144729154,
  521212321206262046784,
  375979686129405009984,
  521212321206262046784,
  375979686129405009984,
  521212321206262038594,
  375979686129405001794,
  521212321206262046784,
  375979686129405009984,
  521212321206262038594,
  375979686129405001794,
  521212321206262046784,
  375979686129405009984,
  521212321206262038594,
  375979686129405001794,
  521212321206262046784,
  375979686129405009984,
  521212321068856647744,
  373674406070144737344,
  521212321068856639554,
  373674406070144729154,
  521212321206262046784,
  375979686129405009984,
  521212321206262038594,
  375979686129405001794,
  521212321068856647744,
  373674406070144737344,
  521212321068856639554,
  373674406070144729154,
  373674406070144737344,
  521212321068856647744,
  373674406070144729154,
  521212321068856639554,
  373674406070144213184,
  521212321068856123584,
  373674406070144204994,
  521212321068856115394,
  521212321206262046784,
  375979686129405009984,
  521212321206262046784,
  375979686129405009984,
  375979677335459471424,
  373674397413604597824,
  375979677335459463234,
  373674397413604589634,
  375979677335459471424,
  373674397413604597824,
  375979686129405009984,
  521212321206262046784,
  375979686129405001794,
  521212321206262038594,
  373674406070144213184,
  521212321068856123584,
  373674406070144204994,
  521212321068856115394,
  523517601265521795264,
  375979686266809884864,
  523517601265521787074,
  375979686266809876674,
  521212330000207061184,
  523517609922061934784,
  521212330000207052994,
  523517609922061926594,
  523517601265521795264,
  375979686266809884864,
  523517601265521787074,
  375979686266809876674,
  523517601128116396224,
  373674406207549612224,
  523517601128116388034,
  373674406207549604034,
  521212329862801662144,
  521212329862801662144,
  521212329862801653954,
  521212329862801653954,
  521212329862801662144,
  521212329862801662144,
  521212329862801653954,
  521212329862801653954,
  523517601128116396224,
  373674406207549612224,
  521212330000207061184,
  523517609922061934784,
  523517601128116920384,
  373674406207550136384,
  523517601128116396224,
  373674406207549612224,
  523517601128116388034,
  373674406207549604034,
  523517601128116396224,
  373674406207549612224,
  523517601128116396224,
  373674406207549612224,
  523517601128116388034,
  373674406207549604034,
  523517601128116920384,
  373674406207550136384,
  523517601128116912194,
  373674406207550128194,
  523517601128116396224,
  373674406207549612224,
  523517601128116920384,
  373674406207550136384,
  375979686266809884864,
  523517601265521795264,
  375979686266809876674,
  523517601265521787074,
  375979686129404485824,
  521212321206261522624,
  523517601128116388034,
  373674406207549604034,
  523517601265521795264,
  375979686266809884864,
  523517601265521787074,
  375979686266809876674,
  523517601265522319424,
  375979686266810409024,
  523517601265522311234,
  375979686266810400834,
  523517601265521795264,
  375979686266809884864,
  523517601265521787074,
  375979686266809876674,
  523517601128116920384,
  373674406207550136384,
  523517601128116912194,
  373674406207550128194,
  521212321206261522624,
  375979686129404485824,
  521212321206261522624,
  375979686129404485824,
  521212321206261514434,
  375979686129404477634,
  523517601265522319424,
  375979686266810409024,
  523517601265522311234,
  375979686266810400834,
  521212321206261522624,
  375979686129404485824,
  521212321206262046784,
  375979686129405009984,
  375979686266809884864,
  523517601265521795264,
  375979686266809876674,
  523517601265521787074,
  373674406207549612224,
  523517601128116396224,
  521212321068856115394,
  373674406070144204994,
  521212321068856123584,
  373674406070144213184,
  521212321068856115394,
  373674406070144204994,
  523517601128116920384,
  373674406207550136384,
  523517601128116912194,
  373674406207550128194,
  521212321068856123584,
  373674406070144213184,
  521212321068856115394,
  373674406070144204994,
  523517601128116920384,
  373674406207550136384,
  523517601128116912194,
  373674406207550128194,
  521212321068856123584,
  373674406070144213184,
  521212321068856115394,
  373674406070144204994,
  521212321068856647744,
  373674406070144737344,
  521212321068856639554,
  373674406070144729154,
  521212321206261522624,
  375979686129404485824,
  523517601128116920384,
  373674406207550136384,
  521212321206261522624,
  375979686129404485824,
  521212321206262046784,
  375979686129405009984,
  373674397413604073664,
  375979677335458947264,
  373674397413604065474,
  375979677335458939074,
  373674397413604073664,
  375979677335458947264,
  373674397413604073664,
  375979677335458947264,
  373674397413604065474,
  375979677335458939074,
  373674397413604073664,
  375979677335458947264,
  373674397413604065474,
  375979677335458939074,
  373674397413604073664,
  375979677335458947264,
  373674397413604065474,
  375979677335458939074,
  373674397413604073664,
  375979677335458947264,
  373674397413604073664,
  375979677335458947264,
  373674397413604065474,
  375979677335458939074,
  373674397413604073664,
  375979677335458947264,
  373674397413604065474,
  375979677335458939074,
  373674397413604073664,
  375979677335458947264,
  373674397413604065474,
  375979677335458939074,
  373674406070144213184,
  521212321068856123584,
  373674406070144204994,
  521212321068856115394,
  373674406070144737344,
  521212321068856647744,
  373674406070144729154,
  521212321068856639554,
  373674397413604073664,
  375979677335458947264,
  373674397413604073664,
  375979677335458947264,
  523517601128116396224,
  373674406207549612224,
  523517601128116388034,
  373674406207549604034,
  523517601128116396224,
  373674406207549612224,
  373674406070144213184,
  521212321068856123584,
  373674406070144204994,
  521212321068856115394,
  375979686129405009984,
  521212321206262046784,
  375979686129405001794,
  521212321206262038594]

/-- Check residQf2_anti0. Antisymmetry of residQf2 under [1, 0, 2, 3]. -/
theorem residQf2_anti0 : isZero kinds [aᵥ, bᵥ, iₒ, jₒ] 100000000000000
    (residQf2 ++ (Prog.outs [1, 0, 2, 3] (residQf2)))
    (residQf2_anti0_cert_0) = true := by decide +kernel

def residQf2_anti1_cert_0 : List Nat := [523517601265522319424,
  375979686266810409024,
  523517601265522311234,
  375979686266810400834,
  523517601265522319424,
  375979686266810409024,
  523517601265522311234,
  375979686266810400834,
  523517601265522319424,
  375979686266810409024,
  523517601265522311234,
  375979686266810400834,
  523517601128116920384,
  373674406207550136384,
  523517601128116912194,
  373674406207550128194,
  523517601128116920384,
  373674406207550136384,
  523517601128116912194,
  373674406207550128194,
  523517601128116920384,
  373674406207550136384,
  523517601128116912194,
  373674406207550128194,
  523517601128116920384,
  373674406207550136384,
  523517601128116920384,
  373674406207550136384,
  521212330000207061184,
  523517609922061934784,
  523517601128116920384,
  373674406207550136384,
  523517601128116912194,
  373674406207550128194,
  523517601128116920384,
  373674406207550136384,
  523517601128116920384,
  373674406207550136384,
  523517601128116912194,
  373674406207550128194,
  523517601128116396224,
  373674406207549612224,
  523517601128116388034,
  373674406207549604034,
  523517601128116920384,
  373674406207550136384,
  523517601128116396224,
  373674406207549612224,
  375979686266810409024,
  523517601265522319424,
  375979686266810400834,
  523517601265522311234,
  375979686129405009984,
  521212321206262046784,
  523517601128116912194,
  373674406207550128194,
  523517601265522319424,
  375979686266810409024,
  523517601265522311234,
  375979686266810400834,
  523517601265521795264,
  375979686266809884864,
  523517601265521787074,
  375979686266809876674,
  523517601128116920384,
  373674406207550136384,
  523517601128116912194,
  373674406207550128194,
  523517601265521795264,
  375979686266809884864,
  523517601265521787074,
  375979686266809876674,
  521212321206262046784,
  375979686129405009984,
  523517601265522319424,
  375979686266810409024,
  523517601265522311234,
  375979686266810400834,
  521212321206261522624,
  375979686129404485824,
  521212321206261514434,
  375979686129404477634,
  521212321206262046784,
  375979686129405009984,
  521212321206261522624,
  375979686129404485824,
  375979686266810409024,
  523517601265522319424,
  375979686266810400834,
  523517601265522311234,
  373674406207550136384,
  523517601128116920384,
  521212321068856639554,
  373674406070144729154,
  523517601128116920384,
  373674406207550136384,
  523517601128116912194,
  373674406207550128194,
  521212321068856123584,
  373674406070144213184,
  521212321068856115394,
  373674406070144204994,
  523517601128116920384,
  373674406207550136384,
  523517601128116912194,
  373674406207550128194,
  521212321068856123584,
  373674406070144213184,
  521212321068856115394,
  373674406070144204994,
  521212321068856647744,
  373674406070144737344,
  521212321068856639554,
  373674406070144729154,
  521212321068856123584,
  373674406070144213184,
  521212321068856115394,
  373674406070144204994,
  523517601128116920384,
  373674406207550136384,
  521212321206261522624,
  375979686129404485824,
  521212321206262046784,
  375979686129405009984,
  521212321206261522624,
  375979686129404485824,
  521212321068856647744,
  373674406070144737344,
  521212321068856639554,
  373674406070144729154,
  521212321206262046784,
  375979686129405009984,
  521212321206262046784,
  375979686129405009984,
  521212321206262038594,
  375979686129405001794,
  521212321206262046784,
  375979686129405009984,
  521212321206262038594,
  375979686129405001794,
  521212321206262046784,
  375979686129405009984,
  521212321206262038594,
  375979686129405001794,
  521212321206262046784,
  375979686129405009984,
  521212321068856647744,
  373674406070144737344,
  521212321068856639554,
  373674406070144729154,
  521212321206262046784,
  375979686129405009984,
  521212321206262038594,
  375979686129405001794,
  521212321068856647744,
  373674406070144737344,
  521212321068856639554,
  373674406070144729154,
  373674406070144737344,
  521212321068856647744,
  373674406070144729154,
  521212321068856639554,
  373674406070144213184,
  521212321068856123584,
  373674406070144204994,
  521212321068856115394,
  521212321206262046784,
  375979686129405009984,
  521212321206262046784,
  375979686129405009984,
  375979677335459471424,
  373674397413604597824,
  375979677335459463234,
  373674397413604589634,
  375979677335459471424,
  373674397413604597824,
  375979686129405009984,
  521212321206262046784,
  375979686129405001794,
  521212321206262038594,
  373674406070144213184,
  521212321068856123584,
  373674406070144204994,
  521212321068856115394,
  523517601265522311234,
  375979686266810400834,
  523517601265522319424,
  375979686266810409024,
  523517601265522311234,
  375979686266810400834,
  523517601265522319424,
  375979686266810409024,
  523517601265522311234,
  375979686266810400834,
  523517601265522319424,
  375979686266810409024,
  523517601128116912194,
  373674406207550128194,
  523517601128116920384,
  373674406207550136384,
  523517601128116912194,
  373674406207550128194,
  523517601128116920384,
  373674406207550136384,
  523517601128116912194,
  373674406207550128194,
  523517601128116920384,
  373674406207550136384,
  523517601128116912194,
  373674406207550128194,
  523517601128116912194,
  373674406207550128194,
  521212330000207052994,
  523517609922061926594,
  523517601128116912194,
  373674406207550128194,
  523517601128116920384,
  373674406207550136384,
  523517601128116912194,
  373674406207550128194,
  523517601128116912194,
  373674406207550128194,
  523517601128116920384,
  373674406207550136384,
  523517601128116388034,
  373674406207549604034,
  523517601128116396224,
  373674406207549612224,
  523517601128116912194,
  373674406207550128194,
  523517601128116388034,
  373674406207549604034,
  375979686266810400834,
  523517601265522311234,
  375979686266810409024,
  523517601265522319424,
  523517601128116912194,
  373674406207550128194,
  375979686129405009984,
  521212321206262046784,
  523517601265522311234,
  375979686266810400834,
  523517601265522319424,
  375979686266810409024,
  523517601265521787074,
  375979686266809876674,
  523517601265521795264,
  375979686266809884864,
  523517601128116912194,
  373674406207550128194,
  523517601128116920384,
  373674406207550136384,
  523517601265521787074,
  375979686266809876674,
  523517601265521795264,
  375979686266809884864,
  521212321206262038594,
  375979686129405001794,
  523517601265522311234,
  375979686266810400834,
  523517601265522319424,
  375979686266810409024,
  521212321206261514434,
  375979686129404477634,
  521212321206261522624,
  375979686129404485824,
  521212321206262038594,
  375979686129405001794,
  521212321206261514434,
  375979686129404477634,
  375979686266810400834,
  523517601265522311234,
  375979686266810409024,
  523517601265522319424,
  521212321068856639554,
  373674406070144729154,
  373674406207550136384,
  523517601128116920384,
  523517601128116912194,
  373674406207550128194,
  523517601128116920384,
  373674406207550136384,
  521212321068856115394,
  373674406070144204994,
  521212321068856123584,
  373674406070144213184,
  523517601128116912194,
  373674406207550128194,
  523517601128116920384,
  373674406207550136384,
  521212321068856115394,
  373674406070144204994,
  521212321068856123584,
  373674406070144213184,
  521212321068856639554,
  373674406070144729154,
  521212321068856647744,
  373674406070144737344,
  521212321068856115394,
  373674406070144204994,
  521212321068856123584,
  373674406070144213184,
  523517601128116912194,
  373674406207550128194,
  521212321206261514434,
  375979686129404477634,
  521212321206262038594,
  375979686129405001794,
  521212321206261514434,
  375979686129404477634,
  521212321068856639554,
  373674406070144729154,
  521212321068856647744,
  373674406070144737344,
  521212321206262038594,
  375979686129405001794,
  521212321206262038594,
  375979686129405001794,
  521212321206262046784,
  375979686129405009984,
  521212321206262038594,
  375979686129405001794,
  521212321206262046784,
  375979686129405009984,
  521212321206262038594,
  375979686129405001794,
  521212321206262046784,
  375979686129405009984,
  521212321206262038594,
  375979686129405001794,
  521212321068856639554,
  373674406070144729154,
  521212321068856647744,
  373674406070144737344,
  521212321206262038594,
  375979686129405001794,
  521212321206262046784,
  375979686129405009984,
  521212321068856639554,
  373674406070144729154,
  521212321068856647744,
  373674406070144737344,
  373674406070144729154,
  521212321068856639554,
  373674406070144737344,
  521212321068856647744,
  373674406070144204994,
  521212321068856115394,
  373674406070144213184,
  521212321068856123584,
  521212321206262038594,
  375979686129405001794,
  521212321206262038594,
  375979686129405001794,
  375979677335459463234,
  373674397413604589634,
  375979677335459471424,
  373674397413604597824,
  375979677335459463234,
  373674397413604589634,
  375979686129405001794,
  521212321206262038594,
  375979686129405009984,
  521212321206262046784,
  373674406070144204994,
  521212321068856115394,
  373674406070144213184,
  521212321068856123584]

/-- Check residQf2_anti1. Antisymmetry of residQf2 under [0, 1, 3, 2]. -/
theorem residQf2_anti1 : isZero kinds [aᵥ, bᵥ, iₒ, jₒ] 100000000000000
    (residQf2 ++ (Prog.outs [0, 1, 3, 2] (residQf2)))
    (residQf2_anti1_cert_0) = true := by decide +kernel

end Verif.Cert
