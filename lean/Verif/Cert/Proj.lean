import Verif.Ein.Ops2
import Verif.Wick.Project
import Verif.Gen.Ccd
import Verif.Gen.Ccsd

/-! Written by `/verif/tools/gen.py`. Checks of einsum programs. -/

set_option maxRecDepth 100000

namespace Verif.Cert

open Verif.Ein Verif.Ein.N


open Verif.Gen

def ccd_proj_cert_0 : List Nat := [794688,
  794688,
  794688,
  794688,
  794688,
  794688,
  794688,
  794688,
  118571099379011784113736688648896417641748464297615937576404566024103044752089152,
  738992192,
  118571099379011784113736688648896417641748464297615937576404566024103044752089152,
  738992192,
  177885597090827005219460925719596798439586013942590316505616713432156545410146368,
  3024362414144,
  177885597090827005219460925719596798439586013942590316505616713432156545410146368,
  3024362414144,
  38853377844514581418389238136470378132848136781042790425036248194778085704104170758208,
  50466660416,
  38853377844514581418389238136470378132848136781042790425036248194778085704104170758208,
  50466660416,
  38853377873462603727718286992363124385020113744360286591446389204642481706082453168192,
  51171303488,
  38853377873462603727718286992363124385020113744360286591446389204642481706082453168192,
  51171303488,
  485845079705500785406036081738853071287064332459481304219317709283762225868429860928,
  3024429523008,
  485845079705500785406036081738853071287064332459481304219317709283762225868429860928,
  3024429523008,
  485845079705500785406036081738853071287064332459481304219317709283762225868429860928,
  3024429523008,
  485845079705500785406036081738853071287064332459481304219317709283762225868429860928,
  3024429523008,
  728619405684027413378911951747468486408544313108849936407006058218113209996705275968,
  3161834922048,
  728619405684027413378911951747468486408544313108849936407006058218113209996705275968,
  3161834922048,
  728619405684027413378911951747468486408544313108849936407006058218113209996705275968,
  3161834922048,
  728619405684027413378911951747468486408544313108849936407006058218113209996705275968,
  3161834922048,
  728619405684027413378911951747468486408544313108849936407006058218113209996705275968,
  3161834922048,
  728619405684027413378911951747468486408544313108849936407006058218113209996705275968,
  3161834922048,
  651851512427154118705281632075114748225118782390741348667862559730978420490291849023439249472,
  55499825216,
  651851512427154118705281632075114748225118782390741348667862559730978420490291849023439249472,
  55499825216,
  651851512427154118705281632075114748225118782390741348667862559730978420490291849023439249472,
  55499825216,
  651851512427154118705281632075114748225118782390741348667862559730978420490291849023439249472,
  55499825216,
  651851512427154118705281632075114748225118782390741348667862559730978420490291849023439249472,
  55499825216,
  651851512427154118705281632075114748225118782390741348667862559730978420490291849023439249472,
  55499825216,
  159143435769702824868734103520719357481042385896899733878564410182215605068113724922667072,
  53352341568,
  159143435769702824868734103520719357481042385896899733878564410182215605068113724922667072,
  53352341568,
  159143435769702824868734103520719357481042385896899733878564410182215605068113724922667072,
  53352341568,
  159143435769702824868734103520719357481042385896899733878564410182215605068113724922667072,
  53352341568,
  159143435769702824868734103520719357481042385896899733878564410182215605068113724922667072,
  53352341568,
  159143435769702824868734103520719357481042385896899733878564410182215605068113724922667072,
  53352341568,
  651851512912702770662334888020866488242349612633701309966599824106355118358993817279990079552,
  55533379648,
  651851512912702770662334888020866488242349612633701309966599824106355118358993817279990079552,
  55533379648,
  651851512912702770662334888020866488242349612633701309966599824106355118358993817279990079552,
  55533379648,
  651851512912702770662334888020866488242349612633701309966599824106355118358993817279990079552,
  55533379648,
  651851512912702770662334888020866488242349612633701309966599824106355118358993817279990079552,
  55533379648,
  651851512912702770662334888020866488242349612633701309966599824106355118358993817279990079552,
  55533379648,
  159143921318354781921990049272459374711872628856861032615828785558913473770081981473497152,
  53385896000,
  159143921318354781921990049272459374711872628856861032615828785558913473770081981473497152,
  53385896000,
  159143921318354781921990049272459374711872628856861032615828785558913473770081981473497152,
  53385896000,
  159143921318354781921990049272459374711872628856861032615828785558913473770081981473497152,
  53385896000,
  159143921318354781921990049272459374711872628856861032615828785558913473770081981473497152,
  53385896000,
  159143921318354781921990049272459374711872628856861032615828785558913473770081981473497152,
  53385896000,
  912751260833500898373753390726808398819889986330594591554571869783368633333018855050333397056,
  224352986210368,
  912751260833500898373753390726808398819889986330594591554571869783368633333018855050333397056,
  224352986210368,
  912751261319345978079254176132844480558743057617658924014053174002686342616781080918762463296,
  227377414938688,
  912751261319345978079254176132844480558743057617658924014053174002686342616781080918762463296,
  227377414938688,
  912751261562120304057780804105720350567358472739138904663421806190374691551132065047037878336,
  227514820337728,
  912751261562120304057780804105720350567358472739138904663421806190374691551132065047037878336,
  227514820337728,
  912751261562120304057780804105720350567358472739138904663421806190374691551132065047037878336,
  227514820337728,
  912751261562120304057780804105720350567358472739138904663421806190374691551132065047037878336,
  227514820337728,
  652074313965566537705615644917082739020303376737201125089828208062056209597042570927631245376,
  218720874799168,
  912751261319345978079254176132844480558743057617658924014053174002686342616781080918762463296,
  227377414938688,
  912751261562120304057780804105720350567358472739138904663421806190374691551132065047037878336,
  227514820337728,
  652074313965566537705615644917082739020303376737201125089828208062056209597042570927631245376,
  218720874799168,
  652074313722792211727089016944206869011687961615721144440459575874367860662691586799355830336,
  218583469400128,
  912751261319345978079254176132844480558743057617658924014053174002686342616781080918762463296,
  227377414938688,
  912751261562120304057780804105720350567358472739138904663421806190374691551132065047037878336,
  227514820337728,
  652074313965566537705615644917082739020303376737201125089828208062056209597042570927631245376,
  218720874799168,
  652074313722792211727089016944206869011687961615721144440459575874367860662691586799355830336,
  218583469400128,
  912751261562120304057780804105720350567358472739138904663421806190374691551132065047037878336,
  227514820337728,
  652074313965566537705615644917082739020303376737201125089828208062056209597042570927631245376,
  218720874799168,
  912751261319345978079254176132844480558743057617658924014053174002686342616781080918762463296,
  227377414938688,
  912751261319345978079254176132844480558743057617658924014053174002686342616781080918762463296,
  227377414938688,
  912751261562120304057780804105720350567358472739138904663421806190374691551132065047037878336,
  227514820337728,
  912751261562120304057780804105720350567358472739138904663421806190374691551132065047037878336,
  227514820337728,
  912751261562120304057780804105720350567358472739138904663421806190374691551132065047037878336,
  227514820337728,
  912751261562120304057780804105720350567358472739138904663421806190374691551132065047037878336,
  227514820337728,
  652074313965566537705615644917082739020303376737201125089828208062056209597042570927631245376,
  218720874799168,
  912751261319345978079254176132844480558743057617658924014053174002686342616781080918762463296,
  227377414938688,
  912751261562120304057780804105720350567358472739138904663421806190374691551132065047037878336,
  227514820337728,
  652074313965566537705615644917082739020303376737201125089828208062056209597042570927631245376,
  218720874799168,
  652074313722792211727089016944206869011687961615721144440459575874367860662691586799355830336,
  218583469400128,
  912751261319345978079254176132844480558743057617658924014053174002686342616781080918762463296,
  227377414938688,
  912751261562120304057780804105720350567358472739138904663421806190374691551132065047037878336,
  227514820337728,
  652074313965566537705615644917082739020303376737201125089828208062056209597042570927631245376,
  218720874799168,
  652074313722792211727089016944206869011687961615721144440459575874367860662691586799355830336,
  218583469400128,
  912751261562120304057780804105720350567358472739138904663421806190374691551132065047037878336,
  227514820337728,
  652074313965566537705615644917082739020303376737201125089828208062056209597042570927631245376,
  218720874799168,
  67903552,
  67903552,
  67895362,
  67895362,
  5369503808,
  5369503808,
  5368979648,
  5368979648,
  794688,
  794688,
  274979364928,
  274979364928,
  5436612672,
  5436612672,
  5436604482,
  5436604482,
  5436088512,
  5436088512,
  5436080322,
  5436080322,
  30791695081536,
  30791695081536,
  31204079050816,
  31204079050816,
  31204079042626,
  31204079042626,
  31066673651776,
  31066673651776,
  31066673651776,
  31066673651776,
  31204079050816,
  31204079050816,
  31204079042626,
  31204079042626,
  31066673651776,
  31066673651776]

/-- Check ccd_proj. C75 -/
theorem ccd_proj : isZero kinds [aᵥ, bᵥ, iₒ, jₒ] 128
    (Wick.projP ⟨1, [], [(true, 0), (true, 2), (false, 3), (false, 1)]⟩ [1, 3, 0, 2] [([], 1/4), ([2], 1/16), ([2, 2], 1/128)] ++ (Prog.scale (-1) (ccd_t2residual)))
    (ccd_proj_cert_0) = true := by decide +kernel

def ccsd_t1_proj_cert_0 : List Nat := [64,
  64,
  14474011154664524427946373126085988481658748083205070504932198000989141205056,
  172096,
  59285549689505892056868344324448208820874232148807968788202283012051522375647296,
  180288,
  59285549689505892056868344324448208820874232148807968788202283012051522375647296,
  180288,
  242833611528216133864932738352939863330300854881517440156476551217363035650651062336,
  188480,
  242833611528216133864932738352939863330300854881517440156476551217363035650651062336,
  188480,
  23312085992258438356925599750226551327917702942857823062990537119149863473984877625408,
  12501056,
  23312145292282139017482181046517248902212512298748719954164395826365073526496394477632,
  750690368,
  391110907699173511191136717823647081963470691331802363467954022370094165337947786282614652992,
  751755328,
  391110907941947837169663345796522951972086106453282344117322654557782514272298770410890068032,
  785301568,
  391110907941947837169663345796522951972086106453282344117322654557782514272298770410890068032,
  785301568,
  95486547117187641415607013566534651503462450375674756932257365304791341164529231780118592,
  784777280,
  95486547117187641415607013566534651503462450375674756932257365304791341164529231780118592,
  784777280,
  95486304342861662888979040690664642888047328895694107563625177616442406813545103504703552,
  751231040,
  651946998488485512190885959574702069482093621762873565197462320845753704830706203909165154368,
  54773858368,
  651946998731259838169412587547577939490709036884353545846830953033442053765057188037440569408,
  54773866560,
  59285549689505892056868344324448208820874232148807968788202283012051522375647296,
  180288,
  118585573390166448638164635022022503630230123045699142646909498222104033892499520,
  738369600,
  23312026706708748851033542881882226879708882068625674255021748916866851422462501978176,
  12320832,
  23312026721182760005698067309828600005794870550284422338226819421799049423451643183168,
  12492864,
  242952182627595145649046475041588759747942603345815056094052955783387138695402356800,
  738385984,
  242952182627595145649046475041588759747942603345815056094052955783387138695402356800,
  738385984,
  485726508606121773621922345050204174869422583995183688281741304717738122823677771840,
  771932224,
  485726508606121773621922345050204174869422583995183688281741304717738122823677771840,
  771932224,
  391110907456280614113231078066657475266206379792680634354287774244829411837572699109587943488,
  13549632,
  391110907456280614113231078066657475266206379792680634354287774244829411837572699109587943488,
  13549632,
  95486061449964584983339283701057945623735789773964993897377052351688906438457930477994048,
  13025344,
  95486061449964584983339283701057945623735789773964993897377052351688906438457930477994048,
  13025344,
  391110907699054940091757706039533345274821794914160615003656406432517760771923683237863358528,
  13557824,
  391110907699054940091757706039533345274821794914160615003656406432517760771923683237863358528,
  13557824,
  95486304224290563509967256576927954239150911253945643266009240040037840789442058753409088,
  13033536,
  95486304224290563509967256576927954239150911253945643266009240040037840789442058753409088,
  13033536,
  651946998974152735247318227304567546187973348423475274960497201158706807265432275210467278912,
  55545610304,
  651946998731378409268791599331691676179357933301995294311128568971018458331081291082191863872,
  55512064064,
  391270051377598968895153068115929934640918252421537495386903603030388325311342781091060645952,
  53398650944,
  391270051377598968895153068115929934640918252421537495386903603030388325311342781091060645952,
  53398650944,
  391270051134824642916626440143054064632302837300057514737534970842699976376991796962785230912,
  53365104704,
  651946998731378409268791599331691676179357933301995294311128568971018458331081291082191863872,
  55512064064,
  651946998974152735247318227304567546187973348423475274960497201158706807265432275210467278912,
  55545610304,
  651946998974152735247318227304567546187973348423475274960497201158706807265432275210467278912,
  55545610304,
  23312085992258438356925599750226551327917702942857823062990537119149863473984877625408,
  12501056,
  23312085992258438356925599750226551327917702942857823062990537119149863473984877625408,
  12501056,
  23312145292282139017482181046517248902212512298748719954164395826365073526496394477632,
  750690368,
  23312145292282139017482181046517248902212512298748719954164395826365073526496394477632,
  750690368,
  391110907699173511191136717823647081963470691331802363467954022370094165337947786282614652992,
  751755328,
  391110907699173511191136717823647081963470691331802363467954022370094165337947786282614652992,
  751755328,
  391110907941947837169663345796522951972086106453282344117322654557782514272298770410890068032,
  785301568,
  391110907941947837169663345796522951972086106453282344117322654557782514272298770410890068032,
  785301568,
  391110907699173511191136717823647081963470691331802363467954022370094165337947786282614652992,
  751755328,
  391110907699173511191136717823647081963470691331802363467954022370094165337947786282614652992,
  751755328,
  391110907941947837169663345796522951972086106453282344117322654557782514272298770410890068032,
  785301568,
  391110907941947837169663345796522951972086106453282344117322654557782514272298770410890068032,
  785301568,
  95486304342861662888979040690664642888047328895694107563625177616442406813545103504703552,
  751231040,
  95486304342861662888979040690664642888047328895694107563625177616442406813545103504703552,
  751231040,
  95486547117187641415607013566534651503462450375674756932257365304791341164529231780118592,
  784777280,
  95486547117187641415607013566534651503462450375674756932257365304791341164529231780118592,
  784777280,
  95486304342861662888979040690664642888047328895694107563625177616442406813545103504703552,
  751231040,
  95486304342861662888979040690664642888047328895694107563625177616442406813545103504703552,
  751231040,
  95486547117187641415607013566534651503462450375674756932257365304791341164529231780118592,
  784777280,
  95486547117187641415607013566534651503462450375674756932257365304791341164529231780118592,
  784777280,
  651946998488485512190885959574702069482093621762873565197462320845753704830706203909165154368,
  54773858368,
  391270050891931745838720800386064457935038525760935785623868722717435222876616709789758521408,
  52626899008,
  651946998488485512190885959574702069482093621762873565197462320845753704830706203909165154368,
  54773858368,
  391270050891931745838720800386064457935038525760935785623868722717435222876616709789758521408,
  52626899008,
  651946998731259838169412587547577939490709036884353545846830953033442053765057188037440569408,
  54773866560,
  391270051134706071817247428358940327943653940882415766273237354905123571810967693918033936448,
  52626907200,
  651946998731259838169412587547577939490709036884353545846830953033442053765057188037440569408,
  54773866560,
  391270051134706071817247428358940327943653940882415766273237354905123571810967693918033936448,
  52626907200,
  651946998731378409268791599331691676179357933301995294311128568971018458331081291082191863872,
  55512064064,
  391270051134824642916626440143054064632302837300057514737534970842699976376991796962785230912,
  53365104704,
  651946998731378409268791599331691676179357933301995294311128568971018458331081291082191863872,
  55512064064,
  391270051134824642916626440143054064632302837300057514737534970842699976376991796962785230912,
  53365104704,
  651946998974152735247318227304567546187973348423475274960497201158706807265432275210467278912,
  55545610304,
  391270051377598968895153068115929934640918252421537495386903603030388325311342781091060645952,
  53398650944,
  651946998974152735247318227304567546187973348423475274960497201158706807265432275210467278912,
  55545610304,
  391270051377598968895153068115929934640918252421537495386903603030388325311342781091060645952,
  53398650944,
  651946998731378409268791599331691676179357933301995294311128568971018458331081291082191863872,
  55512064064,
  391270051134824642916626440143054064632302837300057514737534970842699976376991796962785230912,
  53365104704,
  651946998974152735247318227304567546187973348423475274960497201158706807265432275210467278912,
  55545610304,
  391270051377598968895153068115929934640918252421537495386903603030388325311342781091060645952,
  53398650944,
  651946998731378409268791599331691676179357933301995294311128568971018458331081291082191863872,
  55512064064,
  391270051134824642916626440143054064632302837300057514737534970842699976376991796962785230912,
  53365104704,
  651946998974152735247318227304567546187973348423475274960497201158706807265432275210467278912,
  55545610304,
  391270051377598968895153068115929934640918252421537495386903603030388325311342781091060645952,
  53398650944,
  651946998731378409268791599331691676179357933301995294311128568971018458331081291082191863872,
  55512064064,
  391270051134824642916626440143054064632302837300057514737534970842699976376991796962785230912,
  53365104704,
  651946998974152735247318227304567546187973348423475274960497201158706807265432275210467278912,
  55545610304,
  391270051377598968895153068115929934640918252421537495386903603030388325311342781091060645952,
  53398650944,
  651946998731378409268791599331691676179357933301995294311128568971018458331081291082191863872,
  55512064064,
  391270051134824642916626440143054064632302837300057514737534970842699976376991796962785230912,
  53365104704,
  651946998974152735247318227304567546187973348423475274960497201158706807265432275210467278912,
  55545610304,
  391270051377598968895153068115929934640918252421537495386903603030388325311342781091060645952,
  53398650944,
  8256,
  8256,
  794688,
  794688,
  794688,
  794688,
  64,
  64,
  786496,
  786496,
  3256107072,
  3256107072,
  34357312,
  34357312,
  5436612672,
  5436612672,
  3222544448,
  3222544448,
  5436612672,
  5436612672,
  5436612672,
  5436612672,
  794688,
  794688,
  67903552,
  67903552,
  5369503808,
  5369503808]

/-- Check ccsd_t1_proj. C75 -/
theorem ccsd_t1_proj : isZero kinds [aᵥ, iₒ] 48
    (Wick.projP ⟨1, [], [(true, 0), (false, 1)]⟩ [1, 0] [([], 1/4), ([2], 1/16), ([1], 1/4), ([2, 2], 1/128), ([1, 2], 1/16), ([1, 1], 1/8), ([2, 2, 2], 1/1536), ([1, 2, 2], 1/128), ([1, 1, 2], 1/32), ([1, 1, 1], 1/24)] ++ (Prog.scale (-1) (Prog.outs [1, 0] (ccsd_t1resid))))
    (ccsd_t1_proj_cert_0) = true := by decide +kernel

def ccsd_t2_proj_cert_0 : List Nat := [794688,
  794688,
  794688,
  794688,
  794688,
  794688,
  794688,
  794688,
  118571099379011784113736688648896417641748464297615937576404566024103044752089152,
  738992192,
  118571099379011784113736688648896417641748464297615937576404566024103044752089152,
  738992192,
  177885597090827005219460925719596798439586013942590316505616713432156545410146368,
  3024362414144,
  177885597090827005219460925719596798439586013942590316505616713432156545410146368,
  3024362414144,
  38853377844514581418389238136470378132848136781042790425036248194778085704104170758208,
  50466660416,
  38853377844514581418389238136470378132848136781042790425036248194778085704104170758208,
  50466660416,
  38853377873462603727718286992363124385020113744360286591446389204642481706082453168192,
  51171303488,
  38853377873462603727718286992363124385020113744360286591446389204642481706082453168192,
  51171303488,
  485845079705500785406036081738853071287064332459481304219317709283762225868429860928,
  3024429523008,
  485845079705500785406036081738853071287064332459481304219317709283762225868429860928,
  3024429523008,
  485845079705500785406036081738853071287064332459481304219317709283762225868429860928,
  3024429523008,
  485845079705500785406036081738853071287064332459481304219317709283762225868429860928,
  3024429523008,
  728619405684027413378911951747468486408544313108849936407006058218113209996705275968,
  3161834922048,
  728619405684027413378911951747468486408544313108849936407006058218113209996705275968,
  3161834922048,
  728619405684027413378911951747468486408544313108849936407006058218113209996705275968,
  3161834922048,
  728619405684027413378911951747468486408544313108849936407006058218113209996705275968,
  3161834922048,
  728619405684027413378911951747468486408544313108849936407006058218113209996705275968,
  3161834922048,
  728619405684027413378911951747468486408544313108849936407006058218113209996705275968,
  3161834922048,
  651851512427154118705281632075114748225118782390741348667862559730978420490291849023439249472,
  55499825216,
  651851512427154118705281632075114748225118782390741348667862559730978420490291849023439249472,
  55499825216,
  651851512427154118705281632075114748225118782390741348667862559730978420490291849023439249472,
  55499825216,
  651851512427154118705281632075114748225118782390741348667862559730978420490291849023439249472,
  55499825216,
  651851512427154118705281632075114748225118782390741348667862559730978420490291849023439249472,
  55499825216,
  651851512427154118705281632075114748225118782390741348667862559730978420490291849023439249472,
  55499825216,
  159143435769702824868734103520719357481042385896899733878564410182215605068113724922667072,
  53352341568,
  159143435769702824868734103520719357481042385896899733878564410182215605068113724922667072,
  53352341568,
  159143435769702824868734103520719357481042385896899733878564410182215605068113724922667072,
  53352341568,
  159143435769702824868734103520719357481042385896899733878564410182215605068113724922667072,
  53352341568,
  159143435769702824868734103520719357481042385896899733878564410182215605068113724922667072,
  53352341568,
  159143435769702824868734103520719357481042385896899733878564410182215605068113724922667072,
  53352341568,
  651851512912702770662334888020866488242349612633701309966599824106355118358993817279990079552,
  55533379648,
  651851512912702770662334888020866488242349612633701309966599824106355118358993817279990079552,
  55533379648,
  651851512912702770662334888020866488242349612633701309966599824106355118358993817279990079552,
  55533379648,
  651851512912702770662334888020866488242349612633701309966599824106355118358993817279990079552,
  55533379648,
  651851512912702770662334888020866488242349612633701309966599824106355118358993817279990079552,
  55533379648,
  651851512912702770662334888020866488242349612633701309966599824106355118358993817279990079552,
  55533379648,
  159143921318354781921990049272459374711872628856861032615828785558913473770081981473497152,
  53385896000,
  159143921318354781921990049272459374711872628856861032615828785558913473770081981473497152,
  53385896000,
  159143921318354781921990049272459374711872628856861032615828785558913473770081981473497152,
  53385896000,
  159143921318354781921990049272459374711872628856861032615828785558913473770081981473497152,
  53385896000,
  159143921318354781921990049272459374711872628856861032615828785558913473770081981473497152,
  53385896000,
  159143921318354781921990049272459374711872628856861032615828785558913473770081981473497152,
  53385896000,
  912751260833500898373753390726808398819889986330594591554571869783368633333018855050333397056,
  224352986210368,
  912751260833500898373753390726808398819889986330594591554571869783368633333018855050333397056,
  224352986210368,
  118571099379011784113736688648896417641748464297615937576404566024103044752089152,
  738992192,
  118571099379011784113736688648896417641748464297615937576404566024103044752089152,
  738992192,
  118571099379011784113736688648896417641748464297615937576404566024103044752089152,
  738992192,
  118571099379011784113736688648896417641748464297615937576404566024103044752089152,
  738992192,
  485667223056432267729865476705879726660601709763034880312953102434726071301302919232,
  772546624,
  485667223056432267729865476705879726660601709763034880312953102434726071301302919232,
  772546624,
  485667223056432267729865476705879726660601709763034880312953102434726071301302919232,
  772546624,
  485667223056432267729865476705879726660601709763034880312953102434726071301302919232,
  772546624,
  651851512427035547605902620291001011536469885973099600203564943793402015924267745978687955008,
  54761627712,
  651851512427035547605902620291001011536469885973099600203564943793402015924267745978687955008,
  54761627712,
  651851512427035547605902620291001011536469885973099600203564943793402015924267745978687955008,
  54761627712,
  651851512427035547605902620291001011536469885973099600203564943793402015924267745978687955008,
  54761627712,
  159143435651131725489722319406982668832145968255151269580948472605811039044010680171372608,
  52614144064,
  159143435651131725489722319406982668832145968255151269580948472605811039044010680171372608,
  52614144064,
  159143435651131725489722319406982668832145968255151269580948472605811039044010680171372608,
  52614144064,
  159143435651131725489722319406982668832145968255151269580948472605811039044010680171372608,
  52614144064,
  912751261319345978079254176132844480558743057617658924014053174002686342616781080918762463296,
  227377414938688,
  912751261319345978079254176132844480558743057617658924014053174002686342616781080918762463296,
  227377414938688,
  912751261562120304057780804105720350567358472739138904663421806190374691551132065047037878336,
  227514820337728,
  912751261562120304057780804105720350567358472739138904663421806190374691551132065047037878336,
  227514820337728,
  912751261562120304057780804105720350567358472739138904663421806190374691551132065047037878336,
  227514820337728,
  912751261562120304057780804105720350567358472739138904663421806190374691551132065047037878336,
  227514820337728,
  652074313965566537705615644917082739020303376737201125089828208062056209597042570927631245376,
  218720874799168,
  912751261319345978079254176132844480558743057617658924014053174002686342616781080918762463296,
  227377414938688,
  912751261562120304057780804105720350567358472739138904663421806190374691551132065047037878336,
  227514820337728,
  652074313965566537705615644917082739020303376737201125089828208062056209597042570927631245376,
  218720874799168,
  652074313722792211727089016944206869011687961615721144440459575874367860662691586799355830336,
  218583469400128,
  912751261319345978079254176132844480558743057617658924014053174002686342616781080918762463296,
  227377414938688,
  912751261562120304057780804105720350567358472739138904663421806190374691551132065047037878336,
  227514820337728,
  652074313965566537705615644917082739020303376737201125089828208062056209597042570927631245376,
  218720874799168,
  652074313722792211727089016944206869011687961615721144440459575874367860662691586799355830336,
  218583469400128,
  912751261562120304057780804105720350567358472739138904663421806190374691551132065047037878336,
  227514820337728,
  652074313965566537705615644917082739020303376737201125089828208062056209597042570927631245376,
  218720874799168,
  912751261319345978079254176132844480558743057617658924014053174002686342616781080918762463296,
  227377414938688,
  912751261319345978079254176132844480558743057617658924014053174002686342616781080918762463296,
  227377414938688,
  912751261562120304057780804105720350567358472739138904663421806190374691551132065047037878336,
  227514820337728,
  912751261562120304057780804105720350567358472739138904663421806190374691551132065047037878336,
  227514820337728,
  912751261562120304057780804105720350567358472739138904663421806190374691551132065047037878336,
  227514820337728,
  912751261562120304057780804105720350567358472739138904663421806190374691551132065047037878336,
  227514820337728,
  652074313965566537705615644917082739020303376737201125089828208062056209597042570927631245376,
  218720874799168,
  912751261319345978079254176132844480558743057617658924014053174002686342616781080918762463296,
  227377414938688,
  912751261562120304057780804105720350567358472739138904663421806190374691551132065047037878336,
  227514820337728,
  652074313965566537705615644917082739020303376737201125089828208062056209597042570927631245376,
  218720874799168,
  652074313722792211727089016944206869011687961615721144440459575874367860662691586799355830336,
  218583469400128,
  912751261319345978079254176132844480558743057617658924014053174002686342616781080918762463296,
  227377414938688,
  912751261562120304057780804105720350567358472739138904663421806190374691551132065047037878336,
  227514820337728,
  652074313965566537705615644917082739020303376737201125089828208062056209597042570927631245376,
  218720874799168,
  652074313722792211727089016944206869011687961615721144440459575874367860662691586799355830336,
  218583469400128,
  912751261562120304057780804105720350567358472739138904663421806190374691551132065047037878336,
  227514820337728,
  652074313965566537705615644917082739020303376737201125089828208062056209597042570927631245376,
  218720874799168,
  38853496415613960430173351873159027029265778529507088040973824599344109807148922052672,
  51204857920,
  38853496415613960430173351873159027029265778529507088040973824599344109807148922052672,
  51204857920,
  38853496415613960430173351873159027029265778529507088040973824599344109807148922052672,
  51204857920,
  38853496415613960430173351873159027029265778529507088040973824599344109807148922052672,
  51204857920,
  38853555730111672245394457597396097729646576367056733015352753811491517860649580109888,
  3074828279872,
  38853555730111672245394457597396097729646576367056733015352753811491517860649580109888,
  3074828279872,
  38853555730111672245394457597396097729646576367056733015352753811491517860649580109888,
  3074828279872,
  38853555730111672245394457597396097729646576367056733015352753811491517860649580109888,
  3074828279872,
  651851512912880627311403405697037093275322957260163932663046248012719725208029971847117021248,
  3079190356032,
  651851512912880627311403405697037093275322957260163932663046248012719725208029971847117021248,
  3079190356032,
  651851513155654953289930033669912963283938372381643913312414880200408074142380955975392436288,
  3216595755072,
  651851513155654953289930033669912963283938372381643913312414880200408074142380955975392436288,
  3216595755072,
  651851513155654953289930033669912963283938372381643913312414880200408074142380955975392436288,
  3216595755072,
  651851513155654953289930033669912963283938372381643913312414880200408074142380955975392436288,
  3216595755072,
  651851513155654953289930033669912963283938372381643913312414880200408074142380955975392436288,
  3216595755072,
  651851513155654953289930033669912963283938372381643913312414880200408074142380955975392436288,
  3216595755072,
  651851512912880627311403405697037093275322957260163932663046248012719725208029971847117021248,
  3079190356032,
  651851512912880627311403405697037093275322957260163932663046248012719725208029971847117021248,
  3079190356032,
  651851512912880627311403405697037093275322957260163932663046248012719725208029971847117021248,
  3079190356032,
  651851512912880627311403405697037093275322957260163932663046248012719725208029971847117021248,
  3079190356032,
  651851512912880627311403405697037093275322957260163932663046248012719725208029971847117021248,
  3079190356032,
  651851512912880627311403405697037093275322957260163932663046248012719725208029971847117021248,
  3079190356032,
  651851512912880627311403405697037093275322957260163932663046248012719725208029971847117021248,
  3079190356032,
  651851512912880627311403405697037093275322957260163932663046248012719725208029971847117021248,
  3079190356032,
  651851513155654953289930033669912963283938372381643913312414880200408074142380955975392436288,
  3216595755072,
  651851513155654953289930033669912963283938372381643913312414880200408074142380955975392436288,
  3216595755072,
  651851513155654953289930033669912963283938372381643913312414880200408074142380955975392436288,
  3216595755072,
  651851513155654953289930033669912963283938372381643913312414880200408074142380955975392436288,
  3216595755072,
  651851513155654953289930033669912963283938372381643913312414880200408074142380955975392436288,
  3216595755072,
  651851513155654953289930033669912963283938372381643913312414880200408074142380955975392436288,
  3216595755072,
  159144164270537409517135698318934416300632376799464378430884879611869257157220676875853888,
  3214448271424,
  159144164270537409517135698318934416300632376799464378430884879611869257157220676875853888,
  3214448271424,
  159144164270537409517135698318934416300632376799464378430884879611869257157220676875853888,
  3214448271424,
  159144164270537409517135698318934416300632376799464378430884879611869257157220676875853888,
  3214448271424,
  159143921496211430990507725443064407685217255319483729062252691923520322806236548600438848,
  3077042872384,
  159143921496211430990507725443064407685217255319483729062252691923520322806236548600438848,
  3077042872384,
  159143921496211430990507725443064407685217255319483729062252691923520322806236548600438848,
  3077042872384,
  159143921496211430990507725443064407685217255319483729062252691923520322806236548600438848,
  3077042872384,
  159143921496211430990507725443064407685217255319483729062252691923520322806236548600438848,
  3077042872384,
  159143921496211430990507725443064407685217255319483729062252691923520322806236548600438848,
  3077042872384,
  159144164270537409517135698318934416300632376799464378430884879611869257157220676875853888,
  3214448271424,
  159144164270537409517135698318934416300632376799464378430884879611869257157220676875853888,
  3214448271424,
  159143921496211430990507725443064407685217255319483729062252691923520322806236548600438848,
  3077042872384,
  159143921496211430990507725443064407685217255319483729062252691923520322806236548600438848,
  3077042872384,
  159143921496211430990507725443064407685217255319483729062252691923520322806236548600438848,
  3077042872384,
  159143921496211430990507725443064407685217255319483729062252691923520322806236548600438848,
  3077042872384,
  159144164270537409517135698318934416300632376799464378430884879611869257157220676875853888,
  3214448271424,
  159144164270537409517135698318934416300632376799464378430884879611869257157220676875853888,
  3214448271424,
  159144164270537409517135698318934416300632376799464378430884879611869257157220676875853888,
  3214448271424,
  159144164270537409517135698318934416300632376799464378430884879611869257157220676875853888,
  3214448271424,
  159144164270537409517135698318934416300632376799464378430884879611869257157220676875853888,
  3214448271424,
  159144164270537409517135698318934416300632376799464378430884879611869257157220676875853888,
  3214448271424,
  912751260833619469473132402510922135508538882748236340018869485720945037899042958095084691520,
  224353724407872,
  912751260833619469473132402510922135508538882748236340018869485720945037899042958095084691520,
  224353724407872,
  652074313237065703120967243322284523961483786746298560445275887592626555944953463975678058560,
  215559778869312,
  652074313237065703120967243322284523961483786746298560445275887592626555944953463975678058560,
  215559778869312,
  652074313237065703120967243322284523961483786746298560445275887592626555944953463975678058560,
  215559778869312,
  652074313237065703120967243322284523961483786746298560445275887592626555944953463975678058560,
  215559778869312,
  652074313237065703120967243322284523961483786746298560445275887592626555944953463975678058560,
  215559778869312,
  652074313237065703120967243322284523961483786746298560445275887592626555944953463975678058560,
  215559778869312,
  912751260833619469473132402510922135508538882748236340018869485720945037899042958095084691520,
  224353724407872,
  912751260833619469473132402510922135508538882748236340018869485720945037899042958095084691520,
  224353724407872,
  912751260833619469473132402510922135508538882748236340018869485720945037899042958095084691520,
  224353724407872,
  912751260833619469473132402510922135508538882748236340018869485720945037899042958095084691520,
  224353724407872,
  912751260833619469473132402510922135508538882748236340018869485720945037899042958095084691520,
  224353724407872,
  912751260833619469473132402510922135508538882748236340018869485720945037899042958095084691520,
  224353724407872,
  912751261319168121430185658456673875525769712991196301317606750096321735767744926351635521600,
  224353757962304,
  912751261319168121430185658456673875525769712991196301317606750096321735767744926351635521600,
  224353757962304,
  652074313722614355078020499268036263978714616989258521744013151968003253813655432232228888640,
  215559812423744,
  652074313722614355078020499268036263978714616989258521744013151968003253813655432232228888640,
  215559812423744,
  652074313722614355078020499268036263978714616989258521744013151968003253813655432232228888640,
  215559812423744,
  652074313722614355078020499268036263978714616989258521744013151968003253813655432232228888640,
  215559812423744,
  652074313722614355078020499268036263978714616989258521744013151968003253813655432232228888640,
  215559812423744,
  652074313722614355078020499268036263978714616989258521744013151968003253813655432232228888640,
  215559812423744,
  912751261319168121430185658456673875525769712991196301317606750096321735767744926351635521600,
  224353757962304,
  912751261319168121430185658456673875525769712991196301317606750096321735767744926351635521600,
  224353757962304,
  912751261319168121430185658456673875525769712991196301317606750096321735767744926351635521600,
  224353757962304,
  912751261319168121430185658456673875525769712991196301317606750096321735767744926351635521600,
  224353757962304,
  912751261319168121430185658456673875525769712991196301317606750096321735767744926351635521600,
  224353757962304,
  912751261319168121430185658456673875525769712991196301317606750096321735767744926351635521600,
  224353757962304,
  485845079705500785406036081738853071287064332459481304219317709283762225868429860928,
  3024429523008,
  728619405684027413378911951747468486408544313108849936407006058218113209996705275968,
  3161834922048,
  485845079705500785406036081738853071287064332459481304219317709283762225868429860928,
  3024429523008,
  728619405684027413378911951747468486408544313108849936407006058218113209996705275968,
  3161834922048,
  485845079705500785406036081738853071287064332459481304219317709283762225868429860928,
  3024429523008,
  728619405684027413378911951747468486408544313108849936407006058218113209996705275968,
  3161834922048,
  485845079705500785406036081738853071287064332459481304219317709283762225868429860928,
  3024429523008,
  728619405684027413378911951747468486408544313108849936407006058218113209996705275968,
  3161834922048,
  651851512427154118705281632075114748225118782390741348667862559730978420490291849023439249472,
  55499825216,
  651851512427154118705281632075114748225118782390741348667862559730978420490291849023439249472,
  55499825216,
  651851512427154118705281632075114748225118782390741348667862559730978420490291849023439249472,
  55499825216,
  651851512427154118705281632075114748225118782390741348667862559730978420490291849023439249472,
  55499825216,
  651851512427154118705281632075114748225118782390741348667862559730978420490291849023439249472,
  55499825216,
  651851512427154118705281632075114748225118782390741348667862559730978420490291849023439249472,
  55499825216,
  651851512427154118705281632075114748225118782390741348667862559730978420490291849023439249472,
  55499825216,
  651851512427154118705281632075114748225118782390741348667862559730978420490291849023439249472,
  55499825216,
  159143435769702824868734103520719357481042385896899733878564410182215605068113724922667072,
  53352341568,
  159143435769702824868734103520719357481042385896899733878564410182215605068113724922667072,
  53352341568,
  159143435769702824868734103520719357481042385896899733878564410182215605068113724922667072,
  53352341568,
  159143435769702824868734103520719357481042385896899733878564410182215605068113724922667072,
  53352341568,
  159143435769702824868734103520719357481042385896899733878564410182215605068113724922667072,
  53352341568,
  159143435769702824868734103520719357481042385896899733878564410182215605068113724922667072,
  53352341568]
def ccsd_t2_proj_cert_1 : List Nat := [159143435769702824868734103520719357481042385896899733878564410182215605068113724922667072,
  53352341568,
  159143435769702824868734103520719357481042385896899733878564410182215605068113724922667072,
  53352341568,
  651851512912702770662334888020866488242349612633701309966599824106355118358993817279990079552,
  55533379648,
  651851512912702770662334888020866488242349612633701309966599824106355118358993817279990079552,
  55533379648,
  651851512912702770662334888020866488242349612633701309966599824106355118358993817279990079552,
  55533379648,
  651851512912702770662334888020866488242349612633701309966599824106355118358993817279990079552,
  55533379648,
  651851512912702770662334888020866488242349612633701309966599824106355118358993817279990079552,
  55533379648,
  651851512912702770662334888020866488242349612633701309966599824106355118358993817279990079552,
  55533379648,
  651851512912702770662334888020866488242349612633701309966599824106355118358993817279990079552,
  55533379648,
  651851512912702770662334888020866488242349612633701309966599824106355118358993817279990079552,
  55533379648,
  159143921318354781921990049272459374711872628856861032615828785558913473770081981473497152,
  53385896000,
  159143921318354781921990049272459374711872628856861032615828785558913473770081981473497152,
  53385896000,
  159143921318354781921990049272459374711872628856861032615828785558913473770081981473497152,
  53385896000,
  159143921318354781921990049272459374711872628856861032615828785558913473770081981473497152,
  53385896000,
  159143921318354781921990049272459374711872628856861032615828785558913473770081981473497152,
  53385896000,
  159143921318354781921990049272459374711872628856861032615828785558913473770081981473497152,
  53385896000,
  159143921318354781921990049272459374711872628856861032615828785558913473770081981473497152,
  53385896000,
  159143921318354781921990049272459374711872628856861032615828785558913473770081981473497152,
  53385896000,
  652074313236947132021588231538170787272834890328656811980978271655050151378929360930926764096,
  215559040671808,
  652074313236947132021588231538170787272834890328656811980978271655050151378929360930926764096,
  215559040671808,
  912751260833500898373753390726808398819889986330594591554571869783368633333018855050333397056,
  224352986210368,
  912751260833500898373753390726808398819889986330594591554571869783368633333018855050333397056,
  224352986210368,
  652074313236947132021588231538170787272834890328656811980978271655050151378929360930926764096,
  215559040671808,
  652074313236947132021588231538170787272834890328656811980978271655050151378929360930926764096,
  215559040671808,
  912751260833500898373753390726808398819889986330594591554571869783368633333018855050333397056,
  224352986210368,
  912751260833500898373753390726808398819889986330594591554571869783368633333018855050333397056,
  224352986210368,
  912751261319345978079254176132844480558743057617658924014053174002686342616781080918762463296,
  227377414938688,
  912751261562120304057780804105720350567358472739138904663421806190374691551132065047037878336,
  227514820337728,
  652074313965566537705615644917082739020303376737201125089828208062056209597042570927631245376,
  218720874799168,
  652074313965566537705615644917082739020303376737201125089828208062056209597042570927631245376,
  218720874799168,
  652074313965566537705615644917082739020303376737201125089828208062056209597042570927631245376,
  218720874799168,
  652074313965566537705615644917082739020303376737201125089828208062056209597042570927631245376,
  218720874799168,
  652074313722792211727089016944206869011687961615721144440459575874367860662691586799355830336,
  218583469400128,
  652074313722792211727089016944206869011687961615721144440459575874367860662691586799355830336,
  218583469400128,
  912751261319345978079254176132844480558743057617658924014053174002686342616781080918762463296,
  227377414938688,
  912751261319345978079254176132844480558743057617658924014053174002686342616781080918762463296,
  227377414938688,
  912751261562120304057780804105720350567358472739138904663421806190374691551132065047037878336,
  227514820337728,
  912751261562120304057780804105720350567358472739138904663421806190374691551132065047037878336,
  227514820337728,
  912751261562120304057780804105720350567358472739138904663421806190374691551132065047037878336,
  227514820337728,
  912751261562120304057780804105720350567358472739138904663421806190374691551132065047037878336,
  227514820337728,
  912751261319345978079254176132844480558743057617658924014053174002686342616781080918762463296,
  227377414938688,
  912751261562120304057780804105720350567358472739138904663421806190374691551132065047037878336,
  227514820337728,
  652074313722792211727089016944206869011687961615721144440459575874367860662691586799355830336,
  218583469400128,
  652074313722792211727089016944206869011687961615721144440459575874367860662691586799355830336,
  218583469400128,
  652074313722792211727089016944206869011687961615721144440459575874367860662691586799355830336,
  218583469400128,
  652074313722792211727089016944206869011687961615721144440459575874367860662691586799355830336,
  218583469400128,
  652074313965566537705615644917082739020303376737201125089828208062056209597042570927631245376,
  218720874799168,
  652074313965566537705615644917082739020303376737201125089828208062056209597042570927631245376,
  218720874799168,
  912751261562120304057780804105720350567358472739138904663421806190374691551132065047037878336,
  227514820337728,
  912751261562120304057780804105720350567358472739138904663421806190374691551132065047037878336,
  227514820337728,
  912751261319345978079254176132844480558743057617658924014053174002686342616781080918762463296,
  227377414938688,
  912751261319345978079254176132844480558743057617658924014053174002686342616781080918762463296,
  227377414938688,
  912751261319345978079254176132844480558743057617658924014053174002686342616781080918762463296,
  227377414938688,
  912751261319345978079254176132844480558743057617658924014053174002686342616781080918762463296,
  227377414938688,
  652074313965566537705615644917082739020303376737201125089828208062056209597042570927631245376,
  218720874799168,
  652074313965566537705615644917082739020303376737201125089828208062056209597042570927631245376,
  218720874799168,
  652074313965566537705615644917082739020303376737201125089828208062056209597042570927631245376,
  218720874799168,
  652074313965566537705615644917082739020303376737201125089828208062056209597042570927631245376,
  218720874799168,
  652074313722792211727089016944206869011687961615721144440459575874367860662691586799355830336,
  218583469400128,
  652074313722792211727089016944206869011687961615721144440459575874367860662691586799355830336,
  218583469400128,
  652074313722792211727089016944206869011687961615721144440459575874367860662691586799355830336,
  218583469400128,
  652074313722792211727089016944206869011687961615721144440459575874367860662691586799355830336,
  218583469400128,
  652074313722792211727089016944206869011687961615721144440459575874367860662691586799355830336,
  218583469400128,
  652074313722792211727089016944206869011687961615721144440459575874367860662691586799355830336,
  218583469400128,
  652074313965566537705615644917082739020303376737201125089828208062056209597042570927631245376,
  218720874799168,
  652074313965566537705615644917082739020303376737201125089828208062056209597042570927631245376,
  218720874799168,
  912751261319345978079254176132844480558743057617658924014053174002686342616781080918762463296,
  227377414938688,
  652074313722792211727089016944206869011687961615721144440459575874367860662691586799355830336,
  218583469400128,
  912751261319345978079254176132844480558743057617658924014053174002686342616781080918762463296,
  227377414938688,
  652074313722792211727089016944206869011687961615721144440459575874367860662691586799355830336,
  218583469400128,
  912751261562120304057780804105720350567358472739138904663421806190374691551132065047037878336,
  227514820337728,
  652074313965566537705615644917082739020303376737201125089828208062056209597042570927631245376,
  218720874799168,
  912751261562120304057780804105720350567358472739138904663421806190374691551132065047037878336,
  227514820337728,
  652074313965566537705615644917082739020303376737201125089828208062056209597042570927631245376,
  218720874799168,
  652074313965566537705615644917082739020303376737201125089828208062056209597042570927631245376,
  218720874799168,
  912751261562120304057780804105720350567358472739138904663421806190374691551132065047037878336,
  227514820337728,
  912751261319345978079254176132844480558743057617658924014053174002686342616781080918762463296,
  227377414938688,
  912751261319345978079254176132844480558743057617658924014053174002686342616781080918762463296,
  227377414938688,
  912751261562120304057780804105720350567358472739138904663421806190374691551132065047037878336,
  227514820337728,
  912751261562120304057780804105720350567358472739138904663421806190374691551132065047037878336,
  227514820337728,
  912751261562120304057780804105720350567358472739138904663421806190374691551132065047037878336,
  227514820337728,
  912751261562120304057780804105720350567358472739138904663421806190374691551132065047037878336,
  227514820337728,
  912751261562120304057780804105720350567358472739138904663421806190374691551132065047037878336,
  227514820337728,
  912751261562120304057780804105720350567358472739138904663421806190374691551132065047037878336,
  227514820337728,
  912751261319345978079254176132844480558743057617658924014053174002686342616781080918762463296,
  227377414938688,
  912751261319345978079254176132844480558743057617658924014053174002686342616781080918762463296,
  227377414938688,
  912751261319345978079254176132844480558743057617658924014053174002686342616781080918762463296,
  227377414938688,
  912751261319345978079254176132844480558743057617658924014053174002686342616781080918762463296,
  227377414938688,
  912751261319345978079254176132844480558743057617658924014053174002686342616781080918762463296,
  227377414938688,
  652074313722792211727089016944206869011687961615721144440459575874367860662691586799355830336,
  218583469400128,
  912751261319345978079254176132844480558743057617658924014053174002686342616781080918762463296,
  227377414938688,
  652074313722792211727089016944206869011687961615721144440459575874367860662691586799355830336,
  218583469400128,
  912751261562120304057780804105720350567358472739138904663421806190374691551132065047037878336,
  227514820337728,
  652074313965566537705615644917082739020303376737201125089828208062056209597042570927631245376,
  218720874799168,
  912751261562120304057780804105720350567358472739138904663421806190374691551132065047037878336,
  227514820337728,
  652074313965566537705615644917082739020303376737201125089828208062056209597042570927631245376,
  218720874799168,
  652074313965566537705615644917082739020303376737201125089828208062056209597042570927631245376,
  218720874799168,
  912751261562120304057780804105720350567358472739138904663421806190374691551132065047037878336,
  227514820337728,
  651851512912880627311403405697037093275322957260163932663046248012719725208029971847117021248,
  3079190356032,
  651851513155654953289930033669912963283938372381643913312414880200408074142380955975392436288,
  3216595755072,
  651851512912880627311403405697037093275322957260163932663046248012719725208029971847117021248,
  3079190356032,
  651851513155654953289930033669912963283938372381643913312414880200408074142380955975392436288,
  3216595755072,
  651851512912880627311403405697037093275322957260163932663046248012719725208029971847117021248,
  3079190356032,
  651851513155654953289930033669912963283938372381643913312414880200408074142380955975392436288,
  3216595755072,
  651851512912880627311403405697037093275322957260163932663046248012719725208029971847117021248,
  3079190356032,
  651851513155654953289930033669912963283938372381643913312414880200408074142380955975392436288,
  3216595755072,
  651851512912880627311403405697037093275322957260163932663046248012719725208029971847117021248,
  3079190356032,
  651851513155654953289930033669912963283938372381643913312414880200408074142380955975392436288,
  3216595755072,
  651851512912880627311403405697037093275322957260163932663046248012719725208029971847117021248,
  3079190356032,
  651851513155654953289930033669912963283938372381643913312414880200408074142380955975392436288,
  3216595755072,
  651851512912880627311403405697037093275322957260163932663046248012719725208029971847117021248,
  3079190356032,
  651851513155654953289930033669912963283938372381643913312414880200408074142380955975392436288,
  3216595755072,
  651851512912880627311403405697037093275322957260163932663046248012719725208029971847117021248,
  3079190356032,
  651851513155654953289930033669912963283938372381643913312414880200408074142380955975392436288,
  3216595755072,
  651851512912880627311403405697037093275322957260163932663046248012719725208029971847117021248,
  3079190356032,
  651851513155654953289930033669912963283938372381643913312414880200408074142380955975392436288,
  3216595755072,
  651851512912880627311403405697037093275322957260163932663046248012719725208029971847117021248,
  3079190356032,
  651851513155654953289930033669912963283938372381643913312414880200408074142380955975392436288,
  3216595755072,
  651851512912880627311403405697037093275322957260163932663046248012719725208029971847117021248,
  3079190356032,
  651851513155654953289930033669912963283938372381643913312414880200408074142380955975392436288,
  3216595755072,
  651851512912880627311403405697037093275322957260163932663046248012719725208029971847117021248,
  3079190356032,
  651851513155654953289930033669912963283938372381643913312414880200408074142380955975392436288,
  3216595755072,
  159143921496211430990507725443064407685217255319483729062252691923520322806236548600438848,
  3077042872384,
  159144164270537409517135698318934416300632376799464378430884879611869257157220676875853888,
  3214448271424,
  159143921496211430990507725443064407685217255319483729062252691923520322806236548600438848,
  3077042872384,
  159144164270537409517135698318934416300632376799464378430884879611869257157220676875853888,
  3214448271424,
  159143921496211430990507725443064407685217255319483729062252691923520322806236548600438848,
  3077042872384,
  159144164270537409517135698318934416300632376799464378430884879611869257157220676875853888,
  3214448271424,
  159143921496211430990507725443064407685217255319483729062252691923520322806236548600438848,
  3077042872384,
  159144164270537409517135698318934416300632376799464378430884879611869257157220676875853888,
  3214448271424,
  159143921496211430990507725443064407685217255319483729062252691923520322806236548600438848,
  3077042872384,
  159144164270537409517135698318934416300632376799464378430884879611869257157220676875853888,
  3214448271424,
  159143921496211430990507725443064407685217255319483729062252691923520322806236548600438848,
  3077042872384,
  159144164270537409517135698318934416300632376799464378430884879611869257157220676875853888,
  3214448271424,
  159143921496211430990507725443064407685217255319483729062252691923520322806236548600438848,
  3077042872384,
  159144164270537409517135698318934416300632376799464378430884879611869257157220676875853888,
  3214448271424,
  159143921496211430990507725443064407685217255319483729062252691923520322806236548600438848,
  3077042872384,
  159144164270537409517135698318934416300632376799464378430884879611869257157220676875853888,
  3214448271424,
  159143921496211430990507725443064407685217255319483729062252691923520322806236548600438848,
  3077042872384,
  159144164270537409517135698318934416300632376799464378430884879611869257157220676875853888,
  3214448271424,
  159143921496211430990507725443064407685217255319483729062252691923520322806236548600438848,
  3077042872384,
  159144164270537409517135698318934416300632376799464378430884879611869257157220676875853888,
  3214448271424,
  159143921496211430990507725443064407685217255319483729062252691923520322806236548600438848,
  3077042872384,
  159144164270537409517135698318934416300632376799464378430884879611869257157220676875853888,
  3214448271424,
  159143921496211430990507725443064407685217255319483729062252691923520322806236548600438848,
  3077042872384,
  159144164270537409517135698318934416300632376799464378430884879611869257157220676875853888,
  3214448271424,
  652074313237065703120967243322284523961483786746298560445275887592626555944953463975678058560,
  215559778869312,
  652074313237065703120967243322284523961483786746298560445275887592626555944953463975678058560,
  215559778869312,
  912751260833619469473132402510922135508538882748236340018869485720945037899042958095084691520,
  224353724407872,
  912751260833619469473132402510922135508538882748236340018869485720945037899042958095084691520,
  224353724407872,
  652074313237065703120967243322284523961483786746298560445275887592626555944953463975678058560,
  215559778869312,
  652074313237065703120967243322284523961483786746298560445275887592626555944953463975678058560,
  215559778869312,
  912751260833619469473132402510922135508538882748236340018869485720945037899042958095084691520,
  224353724407872,
  912751260833619469473132402510922135508538882748236340018869485720945037899042958095084691520,
  224353724407872,
  652074313237065703120967243322284523961483786746298560445275887592626555944953463975678058560,
  215559778869312,
  652074313237065703120967243322284523961483786746298560445275887592626555944953463975678058560,
  215559778869312,
  912751260833619469473132402510922135508538882748236340018869485720945037899042958095084691520,
  224353724407872,
  912751260833619469473132402510922135508538882748236340018869485720945037899042958095084691520,
  224353724407872,
  652074313237065703120967243322284523961483786746298560445275887592626555944953463975678058560,
  215559778869312,
  652074313237065703120967243322284523961483786746298560445275887592626555944953463975678058560,
  215559778869312,
  912751260833619469473132402510922135508538882748236340018869485720945037899042958095084691520,
  224353724407872,
  912751260833619469473132402510922135508538882748236340018869485720945037899042958095084691520,
  224353724407872,
  652074313237065703120967243322284523961483786746298560445275887592626555944953463975678058560,
  215559778869312,
  652074313237065703120967243322284523961483786746298560445275887592626555944953463975678058560,
  215559778869312,
  912751260833619469473132402510922135508538882748236340018869485720945037899042958095084691520,
  224353724407872,
  912751260833619469473132402510922135508538882748236340018869485720945037899042958095084691520,
  224353724407872,
  652074313237065703120967243322284523961483786746298560445275887592626555944953463975678058560,
  215559778869312,
  652074313237065703120967243322284523961483786746298560445275887592626555944953463975678058560,
  215559778869312,
  912751260833619469473132402510922135508538882748236340018869485720945037899042958095084691520,
  224353724407872,
  912751260833619469473132402510922135508538882748236340018869485720945037899042958095084691520,
  224353724407872,
  652074313722614355078020499268036263978714616989258521744013151968003253813655432232228888640,
  215559812423744,
  652074313722614355078020499268036263978714616989258521744013151968003253813655432232228888640,
  215559812423744,
  912751261319168121430185658456673875525769712991196301317606750096321735767744926351635521600,
  224353757962304,
  912751261319168121430185658456673875525769712991196301317606750096321735767744926351635521600,
  224353757962304,
  652074313722614355078020499268036263978714616989258521744013151968003253813655432232228888640,
  215559812423744,
  652074313722614355078020499268036263978714616989258521744013151968003253813655432232228888640,
  215559812423744,
  912751261319168121430185658456673875525769712991196301317606750096321735767744926351635521600,
  224353757962304,
  912751261319168121430185658456673875525769712991196301317606750096321735767744926351635521600,
  224353757962304,
  652074313722614355078020499268036263978714616989258521744013151968003253813655432232228888640,
  215559812423744,
  652074313722614355078020499268036263978714616989258521744013151968003253813655432232228888640,
  215559812423744,
  912751261319168121430185658456673875525769712991196301317606750096321735767744926351635521600,
  224353757962304,
  912751261319168121430185658456673875525769712991196301317606750096321735767744926351635521600,
  224353757962304,
  652074313722614355078020499268036263978714616989258521744013151968003253813655432232228888640,
  215559812423744,
  652074313722614355078020499268036263978714616989258521744013151968003253813655432232228888640,
  215559812423744,
  912751261319168121430185658456673875525769712991196301317606750096321735767744926351635521600,
  224353757962304,
  912751261319168121430185658456673875525769712991196301317606750096321735767744926351635521600,
  224353757962304,
  652074313722614355078020499268036263978714616989258521744013151968003253813655432232228888640,
  215559812423744,
  652074313722614355078020499268036263978714616989258521744013151968003253813655432232228888640,
  215559812423744,
  912751261319168121430185658456673875525769712991196301317606750096321735767744926351635521600,
  224353757962304,
  912751261319168121430185658456673875525769712991196301317606750096321735767744926351635521600,
  224353757962304,
  652074313722614355078020499268036263978714616989258521744013151968003253813655432232228888640,
  215559812423744,
  652074313722614355078020499268036263978714616989258521744013151968003253813655432232228888640,
  215559812423744,
  912751261319168121430185658456673875525769712991196301317606750096321735767744926351635521600,
  224353757962304,
  912751261319168121430185658456673875525769712991196301317606750096321735767744926351635521600,
  224353757962304,
  652074313722792211727089016944206869011687961615721144440459575874367860662691586799355830336,
  218583469400128,
  652074313965566537705615644917082739020303376737201125089828208062056209597042570927631245376,
  218720874799168,
  912751261319345978079254176132844480558743057617658924014053174002686342616781080918762463296,
  227377414938688,
  912751261562120304057780804105720350567358472739138904663421806190374691551132065047037878336,
  227514820337728,
  652074313722792211727089016944206869011687961615721144440459575874367860662691586799355830336,
  218583469400128,
  652074313965566537705615644917082739020303376737201125089828208062056209597042570927631245376,
  218720874799168]
def ccsd_t2_proj_cert_2 : List Nat := [912751261319345978079254176132844480558743057617658924014053174002686342616781080918762463296,
  227377414938688,
  912751261562120304057780804105720350567358472739138904663421806190374691551132065047037878336,
  227514820337728,
  652074313722792211727089016944206869011687961615721144440459575874367860662691586799355830336,
  218583469400128,
  652074313965566537705615644917082739020303376737201125089828208062056209597042570927631245376,
  218720874799168,
  912751261319345978079254176132844480558743057617658924014053174002686342616781080918762463296,
  227377414938688,
  912751261562120304057780804105720350567358472739138904663421806190374691551132065047037878336,
  227514820337728,
  652074313722792211727089016944206869011687961615721144440459575874367860662691586799355830336,
  218583469400128,
  652074313965566537705615644917082739020303376737201125089828208062056209597042570927631245376,
  218720874799168,
  912751261319345978079254176132844480558743057617658924014053174002686342616781080918762463296,
  227377414938688,
  912751261562120304057780804105720350567358472739138904663421806190374691551132065047037878336,
  227514820337728,
  652074313722792211727089016944206869011687961615721144440459575874367860662691586799355830336,
  218583469400128,
  652074313965566537705615644917082739020303376737201125089828208062056209597042570927631245376,
  218720874799168,
  912751261319345978079254176132844480558743057617658924014053174002686342616781080918762463296,
  227377414938688,
  912751261562120304057780804105720350567358472739138904663421806190374691551132065047037878336,
  227514820337728,
  652074313722792211727089016944206869011687961615721144440459575874367860662691586799355830336,
  218583469400128,
  652074313965566537705615644917082739020303376737201125089828208062056209597042570927631245376,
  218720874799168,
  912751261319345978079254176132844480558743057617658924014053174002686342616781080918762463296,
  227377414938688,
  912751261562120304057780804105720350567358472739138904663421806190374691551132065047037878336,
  227514820337728,
  652074313722792211727089016944206869011687961615721144440459575874367860662691586799355830336,
  218583469400128,
  652074313965566537705615644917082739020303376737201125089828208062056209597042570927631245376,
  218720874799168,
  912751261319345978079254176132844480558743057617658924014053174002686342616781080918762463296,
  227377414938688,
  912751261562120304057780804105720350567358472739138904663421806190374691551132065047037878336,
  227514820337728,
  652074313722792211727089016944206869011687961615721144440459575874367860662691586799355830336,
  218583469400128,
  652074313965566537705615644917082739020303376737201125089828208062056209597042570927631245376,
  218720874799168,
  912751261319345978079254176132844480558743057617658924014053174002686342616781080918762463296,
  227377414938688,
  912751261562120304057780804105720350567358472739138904663421806190374691551132065047037878336,
  227514820337728,
  652074313722792211727089016944206869011687961615721144440459575874367860662691586799355830336,
  218583469400128,
  652074313965566537705615644917082739020303376737201125089828208062056209597042570927631245376,
  218720874799168,
  912751261319345978079254176132844480558743057617658924014053174002686342616781080918762463296,
  227377414938688,
  912751261562120304057780804105720350567358472739138904663421806190374691551132065047037878336,
  227514820337728,
  652074313722792211727089016944206869011687961615721144440459575874367860662691586799355830336,
  218583469400128,
  652074313965566537705615644917082739020303376737201125089828208062056209597042570927631245376,
  218720874799168,
  912751261319345978079254176132844480558743057617658924014053174002686342616781080918762463296,
  227377414938688,
  912751261562120304057780804105720350567358472739138904663421806190374691551132065047037878336,
  227514820337728,
  652074313722792211727089016944206869011687961615721144440459575874367860662691586799355830336,
  218583469400128,
  652074313965566537705615644917082739020303376737201125089828208062056209597042570927631245376,
  218720874799168,
  912751261319345978079254176132844480558743057617658924014053174002686342616781080918762463296,
  227377414938688,
  912751261562120304057780804105720350567358472739138904663421806190374691551132065047037878336,
  227514820337728,
  652074313722792211727089016944206869011687961615721144440459575874367860662691586799355830336,
  218583469400128,
  652074313965566537705615644917082739020303376737201125089828208062056209597042570927631245376,
  218720874799168,
  912751261319345978079254176132844480558743057617658924014053174002686342616781080918762463296,
  227377414938688,
  912751261562120304057780804105720350567358472739138904663421806190374691551132065047037878336,
  227514820337728,
  652074313722792211727089016944206869011687961615721144440459575874367860662691586799355830336,
  218583469400128,
  652074313965566537705615644917082739020303376737201125089828208062056209597042570927631245376,
  218720874799168,
  912751261319345978079254176132844480558743057617658924014053174002686342616781080918762463296,
  227377414938688,
  912751261562120304057780804105720350567358472739138904663421806190374691551132065047037878336,
  227514820337728,
  652074313722792211727089016944206869011687961615721144440459575874367860662691586799355830336,
  218583469400128,
  652074313965566537705615644917082739020303376737201125089828208062056209597042570927631245376,
  218720874799168,
  912751261319345978079254176132844480558743057617658924014053174002686342616781080918762463296,
  227377414938688,
  912751261562120304057780804105720350567358472739138904663421806190374691551132065047037878336,
  227514820337728,
  652074313722792211727089016944206869011687961615721144440459575874367860662691586799355830336,
  218583469400128,
  652074313965566537705615644917082739020303376737201125089828208062056209597042570927631245376,
  218720874799168,
  912751261319345978079254176132844480558743057617658924014053174002686342616781080918762463296,
  227377414938688,
  912751261562120304057780804105720350567358472739138904663421806190374691551132065047037878336,
  227514820337728,
  652074313722792211727089016944206869011687961615721144440459575874367860662691586799355830336,
  218583469400128,
  652074313965566537705615644917082739020303376737201125089828208062056209597042570927631245376,
  218720874799168,
  912751261319345978079254176132844480558743057617658924014053174002686342616781080918762463296,
  227377414938688,
  912751261562120304057780804105720350567358472739138904663421806190374691551132065047037878336,
  227514820337728,
  652074313722792211727089016944206869011687961615721144440459575874367860662691586799355830336,
  218583469400128,
  652074313965566537705615644917082739020303376737201125089828208062056209597042570927631245376,
  218720874799168,
  912751261319345978079254176132844480558743057617658924014053174002686342616781080918762463296,
  227377414938688,
  912751261562120304057780804105720350567358472739138904663421806190374691551132065047037878336,
  227514820337728,
  652074313722792211727089016944206869011687961615721144440459575874367860662691586799355830336,
  218583469400128,
  652074313965566537705615644917082739020303376737201125089828208062056209597042570927631245376,
  218720874799168,
  912751261319345978079254176132844480558743057617658924014053174002686342616781080918762463296,
  227377414938688,
  912751261562120304057780804105720350567358472739138904663421806190374691551132065047037878336,
  227514820337728,
  652074313722792211727089016944206869011687961615721144440459575874367860662691586799355830336,
  218583469400128,
  652074313965566537705615644917082739020303376737201125089828208062056209597042570927631245376,
  218720874799168,
  912751261319345978079254176132844480558743057617658924014053174002686342616781080918762463296,
  227377414938688,
  912751261562120304057780804105720350567358472739138904663421806190374691551132065047037878336,
  227514820337728,
  652074313722792211727089016944206869011687961615721144440459575874367860662691586799355830336,
  218583469400128,
  652074313965566537705615644917082739020303376737201125089828208062056209597042570927631245376,
  218720874799168,
  912751261319345978079254176132844480558743057617658924014053174002686342616781080918762463296,
  227377414938688,
  912751261562120304057780804105720350567358472739138904663421806190374691551132065047037878336,
  227514820337728,
  652074313722792211727089016944206869011687961615721144440459575874367860662691586799355830336,
  218583469400128,
  652074313965566537705615644917082739020303376737201125089828208062056209597042570927631245376,
  218720874799168,
  912751261319345978079254176132844480558743057617658924014053174002686342616781080918762463296,
  227377414938688,
  912751261562120304057780804105720350567358472739138904663421806190374691551132065047037878336,
  227514820337728,
  652074313722792211727089016944206869011687961615721144440459575874367860662691586799355830336,
  218583469400128,
  652074313965566537705615644917082739020303376737201125089828208062056209597042570927631245376,
  218720874799168,
  912751261319345978079254176132844480558743057617658924014053174002686342616781080918762463296,
  227377414938688,
  912751261562120304057780804105720350567358472739138904663421806190374691551132065047037878336,
  227514820337728,
  652074313722792211727089016944206869011687961615721144440459575874367860662691586799355830336,
  218583469400128,
  652074313965566537705615644917082739020303376737201125089828208062056209597042570927631245376,
  218720874799168,
  912751261319345978079254176132844480558743057617658924014053174002686342616781080918762463296,
  227377414938688,
  912751261562120304057780804105720350567358472739138904663421806190374691551132065047037878336,
  227514820337728,
  652074313722792211727089016944206869011687961615721144440459575874367860662691586799355830336,
  218583469400128,
  652074313965566537705615644917082739020303376737201125089828208062056209597042570927631245376,
  218720874799168,
  912751261319345978079254176132844480558743057617658924014053174002686342616781080918762463296,
  227377414938688,
  912751261562120304057780804105720350567358472739138904663421806190374691551132065047037878336,
  227514820337728,
  67903552,
  67903552,
  67895362,
  67895362,
  67379392,
  67379392,
  67371202,
  67371202,
  5436612672,
  5436612672,
  5436604482,
  5436604482,
  5436088512,
  5436088512,
  5436080322,
  5436080322,
  5436612672,
  5436612672,
  5436604482,
  5436604482,
  5436088512,
  5436088512,
  5436080322,
  5436080322,
  5369503808,
  5369503808,
  5369495618,
  5369495618,
  5368979648,
  5368979648,
  5368971458,
  5368971458,
  31204079050816,
  31204079050816,
  22410133504066,
  22410133504066,
  31066673127616,
  31066673127616,
  22272727580866,
  22272727580866,
  417753473088,
  417753473088,
  417753464898,
  417753464898,
  280347549888,
  280347549888,
  280347541698,
  280347541698,
  31204079050816,
  31204079050816,
  31204079042626,
  31204079042626,
  31066673127616,
  31066673127616,
  31066673119426,
  31066673119426,
  412384763968,
  412384763968,
  412384755778,
  412384755778,
  274978840768,
  274978840768,
  274978832578,
  274978832578,
  30791762190400,
  30791762190400,
  21997816643650,
  21997816643650,
  30791761666240,
  30791761666240,
  21997816119490,
  21997816119490,
  31204079050816,
  31204079050816,
  31204079042626,
  31204079042626,
  31204078526656,
  31204078526656,
  31204078518466,
  31204078518466,
  5436612672,
  5436612672,
  5436604482,
  5436604482,
  5436088512,
  5436088512,
  5436080322,
  5436080322,
  31066673651776,
  31066673651776,
  31066673643586,
  31066673643586,
  31066673127616,
  31066673127616,
  31066673119426,
  31066673119426,
  417753473088,
  417753473088,
  417753464898,
  417753464898,
  417752948928,
  417752948928,
  417752940738,
  417752940738,
  30791762190400,
  30791762190400,
  30791762182210,
  30791762182210,
  30791761666240,
  30791761666240,
  30791761658050,
  30791761658050,
  67903552,
  67903552,
  67895362,
  67895362,
  67379392,
  67379392,
  67371202,
  67371202,
  31204079050816,
  31204079050816,
  22410133504066,
  22410133504066,
  31204078526656,
  31204078526656,
  22410132979906,
  22410132979906,
  30791695081536,
  30791695081536,
  21997749534786,
  21997749534786,
  30791694557376,
  30791694557376,
  21997749010626,
  21997749010626,
  22410133512256,
  22410133512256,
  22410133504066,
  22410133504066,
  22410132988096,
  22410132988096,
  22410132979906,
  22410132979906,
  417753473088,
  417753473088,
  417753464898,
  417753464898,
  417752948928,
  417752948928,
  417752940738,
  417752940738,
  30791762190400,
  30791762190400,
  30791762182210,
  30791762182210,
  30791761666240,
  30791761666240,
  30791761658050,
  30791761658050,
  5369503808,
  5369503808,
  5369495618,
  5369495618,
  5368979648,
  5368979648,
  5368971458,
  5368971458,
  417753473088,
  417753473088,
  417753464898,
  417753464898,
  417752948928,
  417752948928,
  417752940738,
  417752940738,
  30791762190400,
  30791762190400,
  30791762182210,
  30791762182210,
  30791761666240,
  30791761666240,
  30791761658050,
  30791761658050,
  31066673651776,
  31066673651776,
  31066673643586,
  31066673643586,
  31066673127616,
  31066673127616,
  31066673119426,
  31066673119426,
  31204079050816,
  31204079050816,
  31204079042626,
  31204079042626,
  31204078526656,
  31204078526656,
  31204078518466,
  31204078518466,
  412384763968,
  412384763968,
  412384755778,
  412384755778,
  412384239808,
  412384239808,
  412384231618,
  412384231618,
  31204079050816,
  31204079050816,
  31204079042626,
  31204079042626,
  22410132988096,
  22410132988096,
  22410132979906,
  22410132979906,
  31204079050816,
  31204079050816,
  31204079042626,
  31204079042626]
def ccsd_t2_proj_cert_3 : List Nat := [22272727589056,
  22272727589056,
  22272727580866,
  22272727580866,
  5436612672,
  5436612672,
  5436604482,
  5436604482,
  5436088512,
  5436088512,
  5436080322,
  5436080322,
  30791695081536,
  30791695081536,
  30791695073346,
  30791695073346,
  30791694557376,
  30791694557376,
  30791694549186,
  30791694549186,
  794688,
  794688,
  786498,
  786498,
  270528,
  270528,
  262338,
  262338]

/-- Check ccsd_t2_proj. C75 -/
theorem ccsd_t2_proj : isZero kinds [aᵥ, bᵥ, iₒ, jₒ] 384
    (Wick.projP ⟨1, [], [(true, 0), (true, 2), (false, 3), (false, 1)]⟩ [1, 3, 0, 2] [([], 1/4), ([2], 1/16), ([1], 1/4), ([2, 2], 1/128), ([1, 2], 1/16), ([1, 1], 1/8), ([2, 2, 2], 1/1536), ([1, 2, 2], 1/128), ([1, 1, 2], 1/32), ([1, 1, 1], 1/24), ([2, 2, 2, 2], 1/24576), ([1, 2, 2, 2], 1/1536), ([1, 1, 2, 2], 1/256), ([1, 1, 1, 2], 1/96), ([1, 1, 1, 1], 1/96)] ++ (Prog.scale (-1) (Prog.outs [2, 3, 0, 1] (ccsd_t2resid))))
    (ccsd_t2_proj_cert_0 ++ (ccsd_t2_proj_cert_1 ++ (ccsd_t2_proj_cert_2 ++ (ccsd_t2_proj_cert_3)))) = true := by decide +kernel

def ccd_e_proj_cert_0 : List Nat := [615656346818663737691860001564743965704370926101022604186692084441339402679643915803347910232576806887603562348544,
  44,
  14474011154664524427946373126085988481658748083205070504932198000989141204992,
  172076,
  242833611528216133864932738352939863330300854881517440156476551217363035650651062272,
  188460,
  242833611528216133864932738352939863330300854881517440156476551217363035650651062272,
  188460,
  391142736386185166436855650503414741808588224107811645257572596127038922979732485373897474048,
  13560940,
  615656346818663737691860001564743965704370926101022604186692084441339402679643915803347910232576806887603562348544,
  0,
  2,
  2,
  786498,
  786498]

/-- Check ccd_e_proj. C75 -/
theorem ccd_e_proj : isZero kinds [] 16
    (Wick.projP ⟨1, [], []⟩ [] [([], 1/4), ([2], 1/16)] ++ (Prog.scale (-1) (ccdEnergy)))
    (ccd_e_proj_cert_0) = true := by decide +kernel

def ccsd_e_proj_cert_0 : List Nat := [615656346818663737691860001564743965704370926101022604186692084441339402679643915803347910232576806887603562348544,
  44,
  14474011154664524427946373126085988481658748083205070504932198000989141204992,
  172076,
  242833611528216133864932738352939863330300854881517440156476551217363035650651062272,
  188460,
  242833611528216133864932738352939863330300854881517440156476551217363035650651062272,
  188460,
  391142736386185166436855650503414741808588224107811645257572596127038922979732485373897474048,
  13560940,
  7770675568902916283677847627294075626569627356208558085007249638955617140820833992704,
  3052,
  7770734854452605789569904495638400074778448230440706892976037841238629192343209639936,
  183274,
  130370302485466395070870029950257070651618425403440794272861796727468605467865600718113079296,
  183534,
  130370302728240721049396657923132940660233840524920774922230428915156954402216584846388494336,
  191724,
  31828929963837873314078328814134886706292523951885135433629850997713425171837786685177856,
  191596,
  31828687189511894787450355938264878090877402471904486064997663309364490820853658409762816,
  183406,
  130465788789631400084690491314777130261533128105873865683978997998720441025642991254490841088,
  13036780,
  391142736386185166436855650503414741808588224107811645257572596127038922979732485373897474048,
  13560940,
  130465788789631400084690491314777130261533128105873865683978997998720441025642991254490841088,
  13036780,
  391142736386185166436855650503414741808588224107811645257572596127038922979732485373897474048,
  13560940,
  615656346818663737691860001564743965704370926101022604186692084441339402679643915803347910232576806887603562348544,
  0,
  2,
  2,
  794688,
  794688,
  64,
  64,
  794688,
  794688]

/-- Check ccsd_e_proj. C75 -/
theorem ccsd_e_proj : isZero kinds [] 16
    (Wick.projP ⟨1, [], []⟩ [] [([], 1/4), ([2], 1/16), ([1], 1/4), ([2, 2], 1/128), ([1, 2], 1/16), ([1, 1], 1/8)] ++ (Prog.scale (-1) (spinorbitalCCSDE)))
    (ccsd_e_proj_cert_0) = true := by decide +kernel

def ccsdt_e_proj_cert_0 : List Nat := [615656346818663737691860001564743965704370926101022604186692084441339402679643915803347910232576806887603562348544,
  44,
  14474011154664524427946373126085988481658748083205070504932198000989141204992,
  172076,
  242833611528216133864932738352939863330300854881517440156476551217363035650651062272,
  188460,
  242833611528216133864932738352939863330300854881517440156476551217363035650651062272,
  188460,
  391142736386185166436855650503414741808588224107811645257572596127038922979732485373897474048,
  13560940,
  7770675568902916283677847627294075626569627356208558085007249638955617140820833992704,
  3052,
  7770734854452605789569904495638400074778448230440706892976037841238629192343209639936,
  183274,
  130370302485466395070870029950257070651618425403440794272861796727468605467865600718113079296,
  183534,
  130370302728240721049396657923132940660233840524920774922230428915156954402216584846388494336,
  191724,
  31828929963837873314078328814134886706292523951885135433629850997713425171837786685177856,
  191596,
  31828687189511894787450355938264878090877402471904486064997663309364490820853658409762816,
  183406,
  130465788789631400084690491314777130261533128105873865683978997998720441025642991254490841088,
  13036780,
  391142736386185166436855650503414741808588224107811645257572596127038922979732485373897474048,
  13560940,
  130465788789631400084690491314777130261533128105873865683978997998720441025642991254490841088,
  13036780,
  391142736386185166436855650503414741808588224107811645257572596127038922979732485373897474048,
  13560940,
  615656346818663737691860001564743965704370926101022604186692084441339402679643915803347910232576806887603562348544,
  0,
  2,
  2,
  794688,
  794688,
  64,
  64,
  794688,
  794688]

/-- Check ccsdt_e_proj. C75 -/
theorem ccsdt_e_proj : isZero kinds [] 16
    (Wick.projP ⟨1, [], []⟩ [] [([], 1/4), ([3], 1/144), ([2], 1/16), ([1], 1/4), ([3, 3], 1/10368), ([2, 3], 1/576), ([2, 2], 1/128), ([1, 3], 1/144), ([1, 2], 1/16), ([1, 1], 1/8)] ++ (Prog.scale (-1) (spinorbitalCCSDE)))
    (ccsdt_e_proj_cert_0) = true := by decide +kernel

def ccdq_e_proj_cert_0 : List Nat := [615656346818663737691860001564743965704370926101022604186692084441339402679643915803347910232576806887603562348544,
  44,
  14474011154664524427946373126085988481658748083205070504932198000989141204992,
  172076,
  242833611528216133864932738352939863330300854881517440156476551217363035650651062272,
  188460,
  242833611528216133864932738352939863330300854881517440156476551217363035650651062272,
  188460,
  391142736386185166436855650503414741808588224107811645257572596127038922979732485373897474048,
  13560940,
  615656346818663737691860001564743965704370926101022604186692084441339402679643915803347910232576806887603562348544,
  0,
  2,
  2,
  786498,
  786498]

/-- Check ccdq_e_proj. C75 -/
theorem ccdq_e_proj : isZero kinds [] 16
    (Wick.projP ⟨1, [], []⟩ [] [([], 1/4), ([4], 1/2304), ([2], 1/16)] ++ (Prog.scale (-1) (ccdEnergy)))
    (ccdq_e_proj_cert_0) = true := by decide +kernel

end Verif.Cert
