import Verif.Ein.Ops2
import Verif.Gen.Ccd
import Verif.Gen.Ccsd
import Verif.Gen.Ccsdt
import Verif.Gen.Ccdq
import Verif.Gen.Ucc4
import Verif.Gen.Triples
import Verif.Gen.Qf

/-! Written by `/verif/tools/gen.py`. Checks of einsum programs. -/

set_option maxRecDepth 100000

namespace Verif.Cert

open Verif.Ein Verif.Ein.N


open Verif.Gen

def Qf2_wicked_cert_0 : List Nat := [373710980364450406464,
  376016822961414348864,
  373710980364450398274,
  376016822961414340674,
  373710980364449882304,
  376016822961413824704,
  373710980364449874114,
  376016822961413816514,
  816432838127037194304,
  818738680724001136704,
  816432838127037186114,
  818738680724001128514,
  816432838127036670144,
  818738680724000612544,
  816432838127036661954,
  818738680724000604354,
  380628508979774627904,
  380628508979774627904,
  380628508979774619714,
  380628508979774619714,
  380628508979774103744,
  380628508979774103744,
  380628508979774095554,
  380628508979774095554,
  816433400939551662144,
  821043960783261409344,
  816433400939551653954,
  821043960783261401154,
  816433400939551137984,
  821043960783260885184,
  816433400939551129794,
  821043960783260876994,
  373710980089639608384,
  373710980089639608384,
  373710980089639600194,
  373710980089639600194,
  373710980089639084224,
  373710980089639084224,
  373710980089639076034,
  373710980089639076034,
  816432837852226396224,
  816432837852226396224,
  816432837852226388034,
  816432837852226388034,
  816432837852225872064,
  816432837852225872064,
  816432837852225863874,
  816432837852225863874,
  380628509117180026944,
  380628509117180026944,
  380628509117180018754,
  380628509117180018754,
  380628509117179502784,
  380628509117179502784,
  380628509117179494594,
  380628509117179494594,
  816432837852226396224,
  816432837852226396224,
  816432837852226388034,
  816432837852226388034,
  816432837852225872064,
  816432837852225872064,
  816432837852225863874,
  816432837852225863874,
  525931512796615024704,
  668787408212765450304,
  378321540208160145474,
  373711543039559467074,
  525931512796614500544,
  668787408212764926144,
  378321540208159621314,
  373711543039558942914,
  528238481705634897984,
  675704374290386001984,
  378323229057919746114,
  378323229057919746114,
  528238481705634373824,
  675704374290385477824,
  378323229057919221954,
  378323229057919221954,
  818737555236377600064,
  818737555236377600064,
  818737555236377591874,
  818737555236377591874,
  818737546442431537344,
  818737546442431537344,
  818737546442431529154,
  818737546442431529154,
  373710997677530685504,
  521284923883222999104,
  373710997677530677314,
  521284923883222990914,
  373710997677530161344,
  521284923883222474944,
  373710997677530153154,
  521284923883222466754,
  816432837852226396224,
  816432837852226396224,
  816432837852226388034,
  816432837852226388034,
  816432829058280333504,
  816432829058280333504,
  816432829058280325314,
  816432829058280325314,
  380628526705071104064,
  528202452910763417664,
  380628526705071095874,
  528202452910763409474,
  380628526705070579904,
  528202452910762893504,
  380628526705070571714,
  528202452910762885314,
  818737555236377600064,
  818737555236377600064,
  818737555236377591874,
  818737555236377591874,
  818737546305026138304,
  816432266383171264704,
  818737546305026130114,
  816432266383171256514,
  373710997677530685504,
  521284923883222999104,
  373710997677530677314,
  521284923883222990914,
  373710997677530161344,
  521284923883222474944,
  373710997677530153154,
  521284923883222466754,
  816432838127037194304,
  818738680724001136704,
  816432838127037186114,
  818738680724001128514,
  816432829333091131584,
  818738671930055073984,
  816432829333091123394,
  818738671930055065794,
  380628526705071104064,
  528202452910763417664,
  380628526705071095874,
  528202452910763409474,
  380628526567665180864,
  528202452773357494464,
  380628526567665172674,
  528202452773357486274,
  373710435002421616704,
  523589641129968803904,
  373710435002421608514,
  523589641129968795714,
  373710434865015693504,
  521284361070708007104,
  373710434865015685314,
  521284361070707998914,
  816432275177117327424,
  818737555098972201024,
  816432275177117319234,
  818737555098972192834,
  816432266245765865664,
  816432266245765865664,
  816432266245765857474,
  816432266245765857474,
  378322120608565698624,
  521285486970548265024,
  378322120608565690434,
  521285486970548256834,
  378322120608565174464,
  521285486970547740864,
  378322120608565166274,
  521285486970547732674,
  816433400939551662144,
  821043960783261409344,
  816433400939551653954,
  821043960783261401154,
  816433392145605599424,
  821043951989315346624,
  816433392145605591234,
  821043951989315338434,
  378322121020781895744,
  523591329979728404544,
  378322121020781887554,
  523591329979728396354,
  378321558070861504704,
  523591329704917082304,
  378321558070861496514,
  523591329704917074114,
  373710435002421616704,
  523589641129968803904,
  373710435002421608514,
  523589641129968795714,
  373710435002421092544,
  523589641129968279744,
  373710435002421084354,
  523589641129968271554,
  378322120608565698624,
  521285486970548265024,
  378322120608565690434,
  521285486970548256834,
  378321557796050706624,
  521285486833142341824,
  378321557796050698434,
  521285486833142333634,
  376015715061681889344,
  523589641267374202944,
  376015715061681881154,
  523589641267374194754,
  376015715061681365184,
  523589641267373678784,
  376015715061681356994,
  523589641267373670594,
  376017403499225292864,
  525895484276554342464,
  376017403499225284674,
  525895484276554334274,
  373710997677530161344,
  521284923883222474944,
  373710997677530153154,
  521284923883222466754,
  818739243673921003584,
  821043398245557739584,
  818739243673920995394,
  821043398245557731394,
  668894914059568423104,
  668894914059568423104,
  668894914059568414914,
  668894914059568414914,
  818739243673921003584,
  821043398245557739584,
  818739243673920995394,
  821043398245557731394,
  668895477009488289984,
  673505474178088968384,
  668895477009488281794,
  673505474178088960194,
  818737555236377600064,
  818737555236377600064,
  818737555236377591874,
  818737555236377591874,
  668894351384459354304,
  671199631306314227904,
  668894351384459346114,
  671199631306314219714,
  523517601265522319424,
  375979686266810409024,
  523517601265522311234,
  375979686266810400834,
  523517601265522319424,
  375979686266810409024,
  523517601265522311234,
  375979686266810400834,
  523517601265522319424,
  375979686266810409024,
  523517601265522311234,
  375979686266810400834,
  523517601128116920384,
  373674406207550136384,
  523517601128116912194,
  373674406207550128194,
  523517601128116920384,
  373674406207550136384,
  523517601128116912194,
  373674406207550128194,
  523517601128116920384,
  373674406207550136384,
  523517601128116912194,
  373674406207550128194,
  523517601128116920384,
  373674406207550136384,
  523517601128116920384,
  373674406207550136384,
  521212330000207061184,
  523517609922061934784,
  523517601128116920384,
  373674406207550136384,
  523517601128116912194,
  373674406207550128194,
  523517601128116920384,
  373674406207550136384,
  523517601128116920384,
  373674406207550136384,
  523517601128116912194,
  373674406207550128194,
  523517601128116396224,
  373674406207549612224,
  523517601128116388034,
  373674406207549604034,
  523517601128116920384,
  373674406207550136384,
  523517601128116396224,
  373674406207549612224,
  375979686266810409024,
  523517601265522319424,
  375979686266810400834,
  523517601265522311234,
  375979686129405009984,
  521212321206262046784,
  523517601128116912194,
  373674406207550128194,
  523517601265522319424,
  375979686266810409024,
  523517601265522311234,
  375979686266810400834,
  523517601265521795264,
  375979686266809884864,
  523517601265521787074,
  375979686266809876674,
  523517601128116920384,
  373674406207550136384,
  523517601128116912194,
  373674406207550128194,
  523517601265521795264,
  375979686266809884864,
  523517601265521787074,
  375979686266809876674,
  521212321206262046784,
  375979686129405009984,
  523517601265522319424,
  375979686266810409024,
  523517601265522311234,
  375979686266810400834,
  521212321206261522624,
  375979686129404485824,
  521212321206261514434,
  375979686129404477634,
  521212321206262046784,
  375979686129405009984,
  521212321206261522624,
  375979686129404485824,
  375979686266810409024,
  523517601265522319424,
  375979686266810400834,
  523517601265522311234,
  373674406207550136384,
  523517601128116920384,
  521212321068856639554,
  373674406070144729154,
  523517601128116920384,
  373674406207550136384,
  523517601128116912194,
  373674406207550128194,
  521212321068856123584,
  373674406070144213184,
  521212321068856115394,
  373674406070144204994,
  523517601128116920384,
  373674406207550136384,
  523517601128116912194,
  373674406207550128194,
  521212321068856123584,
  373674406070144213184,
  521212321068856115394,
  373674406070144204994,
  521212321068856647744,
  373674406070144737344,
  521212321068856639554,
  373674406070144729154,
  521212321068856123584,
  373674406070144213184,
  521212321068856115394,
  373674406070144204994,
  523517601128116920384,
  373674406207550136384,
  521212321206261522624,
  375979686129404485824,
  521212321206262046784,
  375979686129405009984,
  521212321206261522624,
  375979686129404485824,
  521212321068856647744,
  373674406070144737344,
  521212321068856639554,
  373674406070144729154,
  521212321206262046784,
  375979686129405009984,
  521212321206262046784,
  375979686129405009984,
  521212321206262038594,
  375979686129405001794,
  521212321206262046784,
  375979686129405009984,
  521212321206262038594,
  375979686129405001794,
  521212321206262046784,
  375979686129405009984,
  521212321206262038594,
  375979686129405001794,
  521212321206262046784,
  375979686129405009984,
  521212321068856647744,
  373674406070144737344,
  521212321068856639554,
  373674406070144729154,
  521212321206262046784,
  375979686129405009984,
  521212321206262038594,
  375979686129405001794,
  521212321068856647744,
  373674406070144737344,
  521212321068856639554,
  373674406070144729154,
  373674406070144737344,
  521212321068856647744]
def Qf2_wicked_cert_1 : List Nat := [373674406070144729154,
  521212321068856639554,
  373674406070144213184,
  521212321068856123584,
  373674406070144204994,
  521212321068856115394,
  521212321206262046784,
  375979686129405009984,
  521212321206262046784,
  375979686129405009984,
  375979677335459471424,
  373674397413604597824,
  375979677335459463234,
  373674397413604589634,
  375979677335459471424,
  373674397413604597824,
  375979686129405009984,
  521212321206262046784,
  375979686129405001794,
  521212321206262038594,
  373674406070144213184,
  521212321068856123584,
  373674406070144204994,
  521212321068856115394]

/-- Check Qf2_wicked.  -/
theorem Qf2_wicked : isZero kinds [aᵥ, bᵥ, iₒ, jₒ] 100000000000000
    (Prog.outs [2, 3, 0, 1] (wnT2cubed_toT2) ++ (Prog.scale (-1) (Prog.rep 71 39 [2, 3, 0, 1] (residQf2))))
    (Qf2_wicked_cert_0 ++ (Qf2_wicked_cert_1)) = true := by decide +kernel

end Verif.Cert
