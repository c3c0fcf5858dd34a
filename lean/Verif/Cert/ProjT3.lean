import Verif.Ein.Ops2
import Verif.Wick.Project
import Verif.Gen.Ccsdt
import Verif.Wick.Delta

/-! Written by `/verif/tools/gen.py`. Checks of einsum programs. -/

set_option maxRecDepth 100000

namespace Verif.Cert

open Verif.Ein Verif.Ein.N


open Verif.Gen

def ccsdt_t1_proj_cert_0 : List Nat := [64,
  64,
  14474011154664524427946373126085988481658748083205070504932198000989141205056,
  172096,
  59285549689505892056868344324448208820874232148807968788202283012051522375647296,
  180288,
  59285549689505892056868344324448208820874232148807968788202283012051522375647296,
  180288,
  242833611528216133864932738352939863330300854881517440156476551217363035650651062336,
  188480,
  242833611528216133864932738352939863330300854881517440156476551217363035650651062336,
  188480,
  651946998974152735247318227304567546187973348423475274960497201158706807265432275210467278912,
  55545610304,
  23312085992258438356925599750226551327917702942857823062990537119149863473984877625408,
  12501056,
  23312145292282139017482181046517248902212512298748719954164395826365073526496394477632,
  750690368,
  391110907699173511191136717823647081963470691331802363467954022370094165337947786282614652992,
  751755328,
  391110907941947837169663345796522951972086106453282344117322654557782514272298770410890068032,
  785301568,
  391110907941947837169663345796522951972086106453282344117322654557782514272298770410890068032,
  785301568,
  95486547117187641415607013566534651503462450375674756932257365304791341164529231780118592,
  784777280,
  95486547117187641415607013566534651503462450375674756932257365304791341164529231780118592,
  784777280,
  95486304342861662888979040690664642888047328895694107563625177616442406813545103504703552,
  751231040,
  651946998488485512190885959574702069482093621762873565197462320845753704830706203909165154368,
  54773858368,
  651946998731259838169412587547577939490709036884353545846830953033442053765057188037440569408,
  54773866560,
  59285549689505892056868344324448208820874232148807968788202283012051522375647296,
  180288,
  118585573390166448638164635022022503630230123045699142646909498222104033892499520,
  738369600,
  23312026706708748851033542881882226879708882068625674255021748916866851422462501978176,
  12320832,
  23312026721182760005698067309828600005794870550284422338226819421799049423451643183168,
  12492864,
  242952182627595145649046475041588759747942603345815056094052955783387138695402356800,
  738385984,
  242952182627595145649046475041588759747942603345815056094052955783387138695402356800,
  738385984,
  485726508606121773621922345050204174869422583995183688281741304717738122823677771840,
  771932224,
  485726508606121773621922345050204174869422583995183688281741304717738122823677771840,
  771932224,
  391110907456280614113231078066657475266206379792680634354287774244829411837572699109587943488,
  13549632,
  391110907456280614113231078066657475266206379792680634354287774244829411837572699109587943488,
  13549632,
  95486061449964584983339283701057945623735789773964993897377052351688906438457930477994048,
  13025344,
  95486061449964584983339283701057945623735789773964993897377052351688906438457930477994048,
  13025344,
  391110907699054940091757706039533345274821794914160615003656406432517760771923683237863358528,
  13557824,
  391110907699054940091757706039533345274821794914160615003656406432517760771923683237863358528,
  13557824,
  95486304224290563509967256576927954239150911253945643266009240040037840789442058753409088,
  13033536,
  95486304224290563509967256576927954239150911253945643266009240040037840789442058753409088,
  13033536,
  651946998974152735247318227304567546187973348423475274960497201158706807265432275210467278912,
  55545610304,
  651946998731378409268791599331691676179357933301995294311128568971018458331081291082191863872,
  55512064064,
  391270051377598968895153068115929934640918252421537495386903603030388325311342781091060645952,
  53398650944,
  391270051377598968895153068115929934640918252421537495386903603030388325311342781091060645952,
  53398650944,
  391270051134824642916626440143054064632302837300057514737534970842699976376991796962785230912,
  53365104704,
  651946998731378409268791599331691676179357933301995294311128568971018458331081291082191863872,
  55512064064,
  651946998974152735247318227304567546187973348423475274960497201158706807265432275210467278912,
  55545610304,
  651946998974152735247318227304567546187973348423475274960497201158706807265432275210467278912,
  55545610304,
  23312085992258438356925599750226551327917702942857823062990537119149863473984877625408,
  12501056,
  23312085992258438356925599750226551327917702942857823062990537119149863473984877625408,
  12501056,
  23312145292282139017482181046517248902212512298748719954164395826365073526496394477632,
  750690368,
  23312145292282139017482181046517248902212512298748719954164395826365073526496394477632,
  750690368,
  391110907699173511191136717823647081963470691331802363467954022370094165337947786282614652992,
  751755328,
  391110907699173511191136717823647081963470691331802363467954022370094165337947786282614652992,
  751755328,
  391110907941947837169663345796522951972086106453282344117322654557782514272298770410890068032,
  785301568,
  391110907941947837169663345796522951972086106453282344117322654557782514272298770410890068032,
  785301568,
  391110907699173511191136717823647081963470691331802363467954022370094165337947786282614652992,
  751755328,
  391110907699173511191136717823647081963470691331802363467954022370094165337947786282614652992,
  751755328,
  391110907941947837169663345796522951972086106453282344117322654557782514272298770410890068032,
  785301568,
  391110907941947837169663345796522951972086106453282344117322654557782514272298770410890068032,
  785301568,
  95486304342861662888979040690664642888047328895694107563625177616442406813545103504703552,
  751231040,
  95486304342861662888979040690664642888047328895694107563625177616442406813545103504703552,
  751231040,
  95486547117187641415607013566534651503462450375674756932257365304791341164529231780118592,
  784777280,
  95486547117187641415607013566534651503462450375674756932257365304791341164529231780118592,
  784777280,
  95486304342861662888979040690664642888047328895694107563625177616442406813545103504703552,
  751231040,
  95486304342861662888979040690664642888047328895694107563625177616442406813545103504703552,
  751231040,
  95486547117187641415607013566534651503462450375674756932257365304791341164529231780118592,
  784777280,
  95486547117187641415607013566534651503462450375674756932257365304791341164529231780118592,
  784777280,
  651946998488485512190885959574702069482093621762873565197462320845753704830706203909165154368,
  54773858368,
  391270050891931745838720800386064457935038525760935785623868722717435222876616709789758521408,
  52626899008,
  651946998488485512190885959574702069482093621762873565197462320845753704830706203909165154368,
  54773858368,
  391270050891931745838720800386064457935038525760935785623868722717435222876616709789758521408,
  52626899008,
  651946998731259838169412587547577939490709036884353545846830953033442053765057188037440569408,
  54773866560,
  391270051134706071817247428358940327943653940882415766273237354905123571810967693918033936448,
  52626907200,
  651946998731259838169412587547577939490709036884353545846830953033442053765057188037440569408,
  54773866560,
  391270051134706071817247428358940327943653940882415766273237354905123571810967693918033936448,
  52626907200,
  651946998731378409268791599331691676179357933301995294311128568971018458331081291082191863872,
  55512064064,
  391270051134824642916626440143054064632302837300057514737534970842699976376991796962785230912,
  53365104704,
  651946998731378409268791599331691676179357933301995294311128568971018458331081291082191863872,
  55512064064,
  391270051134824642916626440143054064632302837300057514737534970842699976376991796962785230912,
  53365104704,
  651946998974152735247318227304567546187973348423475274960497201158706807265432275210467278912,
  55545610304,
  391270051377598968895153068115929934640918252421537495386903603030388325311342781091060645952,
  53398650944,
  651946998974152735247318227304567546187973348423475274960497201158706807265432275210467278912,
  55545610304,
  391270051377598968895153068115929934640918252421537495386903603030388325311342781091060645952,
  53398650944,
  651946998731378409268791599331691676179357933301995294311128568971018458331081291082191863872,
  55512064064,
  391270051134824642916626440143054064632302837300057514737534970842699976376991796962785230912,
  53365104704,
  651946998974152735247318227304567546187973348423475274960497201158706807265432275210467278912,
  55545610304,
  391270051377598968895153068115929934640918252421537495386903603030388325311342781091060645952,
  53398650944,
  651946998731378409268791599331691676179357933301995294311128568971018458331081291082191863872,
  55512064064,
  391270051134824642916626440143054064632302837300057514737534970842699976376991796962785230912,
  53365104704,
  651946998974152735247318227304567546187973348423475274960497201158706807265432275210467278912,
  55545610304,
  391270051377598968895153068115929934640918252421537495386903603030388325311342781091060645952,
  53398650944,
  651946998731378409268791599331691676179357933301995294311128568971018458331081291082191863872,
  55512064064,
  391270051134824642916626440143054064632302837300057514737534970842699976376991796962785230912,
  53365104704,
  651946998974152735247318227304567546187973348423475274960497201158706807265432275210467278912,
  55545610304,
  391270051377598968895153068115929934640918252421537495386903603030388325311342781091060645952,
  53398650944,
  651946998731378409268791599331691676179357933301995294311128568971018458331081291082191863872,
  55512064064,
  391270051134824642916626440143054064632302837300057514737534970842699976376991796962785230912,
  53365104704,
  651946998974152735247318227304567546187973348423475274960497201158706807265432275210467278912,
  55545610304,
  391270051377598968895153068115929934640918252421537495386903603030388325311342781091060645952,
  53398650944,
  8256,
  8256,
  794688,
  794688,
  794688,
  794688,
  64,
  64,
  786496,
  786496,
  3256107072,
  3256107072,
  34357312,
  34357312,
  5436612672,
  5436612672,
  3222544448,
  3222544448,
  5436612672,
  5436612672,
  5436612672,
  5436612672,
  794688,
  794688,
  67903552,
  67903552,
  5369503808,
  5369503808,
  5436612672,
  5436612672]

/-- Check ccsdt_t1_proj. C75 -/
theorem ccsdt_t1_proj : isZero kinds [aᵥ, iₒ] 144
    (Wick.projP ⟨1, [], [(true, 0), (false, 1)]⟩ [1, 0] [([], 1/4), ([3], 1/144), ([2], 1/16), ([1], 1/4), ([3, 3], 1/10368), ([2, 3], 1/576), ([2, 2], 1/128), ([1, 3], 1/144), ([1, 2], 1/16), ([1, 1], 1/8), ([3, 3, 3], 1/1119744), ([2, 3, 3], 1/41472), ([2, 2, 3], 1/4608), ([2, 2, 2], 1/1536), ([1, 3, 3], 1/10368), ([1, 2, 3], 1/576), ([1, 2, 2], 1/128), ([1, 1, 3], 1/288), ([1, 1, 2], 1/32), ([1, 1, 1], 1/24)] ++ (Prog.scale (-1) (Prog.outs [1, 0] (ccsdt_t1eqns))))
    (ccsdt_t1_proj_cert_0) = true := by decide +kernel

def ccsdt_t2_proj_cert_0 : List Nat := [794688,
  794688,
  794688,
  794688,
  794688,
  794688,
  794688,
  794688,
  38853496415613960430173351873159027029265778529507088040973824599344109807148922052672,
  51204857920,
  38853555730111672245394457597396097729646576367056733015352753811491517860649580109888,
  3074828279872,
  651851512912880627311403405697037093275322957260163932663046248012719725208029971847117021248,
  3079190356032,
  651851513155654953289930033669912963283938372381643913312414880200408074142380955975392436288,
  3216595755072,
  651851513155654953289930033669912963283938372381643913312414880200408074142380955975392436288,
  3216595755072,
  651851513155654953289930033669912963283938372381643913312414880200408074142380955975392436288,
  3216595755072,
  159144164270537409517135698318934416300632376799464378430884879611869257157220676875853888,
  3214448271424,
  159144164270537409517135698318934416300632376799464378430884879611869257157220676875853888,
  3214448271424,
  159144164270537409517135698318934416300632376799464378430884879611869257157220676875853888,
  3214448271424,
  159143921496211430990507725443064407685217255319483729062252691923520322806236548600438848,
  3077042872384,
  912751260833619469473132402510922135508538882748236340018869485720945037899042958095084691520,
  224353724407872,
  912751260833619469473132402510922135508538882748236340018869485720945037899042958095084691520,
  224353724407872,
  912751261319168121430185658456673875525769712991196301317606750096321735767744926351635521600,
  224353757962304,
  912751261319168121430185658456673875525769712991196301317606750096321735767744926351635521600,
  224353757962304,
  118571099379011784113736688648896417641748464297615937576404566024103044752089152,
  738992192,
  118571099379011784113736688648896417641748464297615937576404566024103044752089152,
  738992192,
  177885597090827005219460925719596798439586013942590316505616713432156545410146368,
  3024362414144,
  177885597090827005219460925719596798439586013942590316505616713432156545410146368,
  3024362414144,
  38853377844514581418389238136470378132848136781042790425036248194778085704104170758208,
  50466660416,
  38853377844514581418389238136470378132848136781042790425036248194778085704104170758208,
  50466660416,
  38853377873462603727718286992363124385020113744360286591446389204642481706082453168192,
  51171303488,
  38853377873462603727718286992363124385020113744360286591446389204642481706082453168192,
  51171303488,
  485845079705500785406036081738853071287064332459481304219317709283762225868429860928,
  3024429523008,
  485845079705500785406036081738853071287064332459481304219317709283762225868429860928,
  3024429523008,
  485845079705500785406036081738853071287064332459481304219317709283762225868429860928,
  3024429523008,
  485845079705500785406036081738853071287064332459481304219317709283762225868429860928,
  3024429523008,
  728619405684027413378911951747468486408544313108849936407006058218113209996705275968,
  3161834922048,
  728619405684027413378911951747468486408544313108849936407006058218113209996705275968,
  3161834922048,
  728619405684027413378911951747468486408544313108849936407006058218113209996705275968,
  3161834922048,
  728619405684027413378911951747468486408544313108849936407006058218113209996705275968,
  3161834922048,
  728619405684027413378911951747468486408544313108849936407006058218113209996705275968,
  3161834922048,
  728619405684027413378911951747468486408544313108849936407006058218113209996705275968,
  3161834922048,
  651851512427154118705281632075114748225118782390741348667862559730978420490291849023439249472,
  55499825216,
  651851512427154118705281632075114748225118782390741348667862559730978420490291849023439249472,
  55499825216,
  651851512427154118705281632075114748225118782390741348667862559730978420490291849023439249472,
  55499825216,
  651851512427154118705281632075114748225118782390741348667862559730978420490291849023439249472,
  55499825216,
  651851512427154118705281632075114748225118782390741348667862559730978420490291849023439249472,
  55499825216,
  651851512427154118705281632075114748225118782390741348667862559730978420490291849023439249472,
  55499825216,
  159143435769702824868734103520719357481042385896899733878564410182215605068113724922667072,
  53352341568,
  159143435769702824868734103520719357481042385896899733878564410182215605068113724922667072,
  53352341568,
  159143435769702824868734103520719357481042385896899733878564410182215605068113724922667072,
  53352341568,
  159143435769702824868734103520719357481042385896899733878564410182215605068113724922667072,
  53352341568,
  159143435769702824868734103520719357481042385896899733878564410182215605068113724922667072,
  53352341568,
  159143435769702824868734103520719357481042385896899733878564410182215605068113724922667072,
  53352341568,
  651851512912702770662334888020866488242349612633701309966599824106355118358993817279990079552,
  55533379648,
  651851512912702770662334888020866488242349612633701309966599824106355118358993817279990079552,
  55533379648,
  651851512912702770662334888020866488242349612633701309966599824106355118358993817279990079552,
  55533379648,
  651851512912702770662334888020866488242349612633701309966599824106355118358993817279990079552,
  55533379648,
  651851512912702770662334888020866488242349612633701309966599824106355118358993817279990079552,
  55533379648,
  651851512912702770662334888020866488242349612633701309966599824106355118358993817279990079552,
  55533379648,
  159143921318354781921990049272459374711872628856861032615828785558913473770081981473497152,
  53385896000,
  159143921318354781921990049272459374711872628856861032615828785558913473770081981473497152,
  53385896000,
  159143921318354781921990049272459374711872628856861032615828785558913473770081981473497152,
  53385896000,
  159143921318354781921990049272459374711872628856861032615828785558913473770081981473497152,
  53385896000,
  159143921318354781921990049272459374711872628856861032615828785558913473770081981473497152,
  53385896000,
  159143921318354781921990049272459374711872628856861032615828785558913473770081981473497152,
  53385896000,
  912751260833500898373753390726808398819889986330594591554571869783368633333018855050333397056,
  224352986210368,
  912751260833500898373753390726808398819889986330594591554571869783368633333018855050333397056,
  224352986210368,
  118571099379011784113736688648896417641748464297615937576404566024103044752089152,
  738992192,
  118571099379011784113736688648896417641748464297615937576404566024103044752089152,
  738992192,
  118571099379011784113736688648896417641748464297615937576404566024103044752089152,
  738992192,
  118571099379011784113736688648896417641748464297615937576404566024103044752089152,
  738992192,
  485667223056432267729865476705879726660601709763034880312953102434726071301302919232,
  772546624,
  485667223056432267729865476705879726660601709763034880312953102434726071301302919232,
  772546624,
  485667223056432267729865476705879726660601709763034880312953102434726071301302919232,
  772546624,
  485667223056432267729865476705879726660601709763034880312953102434726071301302919232,
  772546624,
  651851512427035547605902620291001011536469885973099600203564943793402015924267745978687955008,
  54761627712,
  651851512427035547605902620291001011536469885973099600203564943793402015924267745978687955008,
  54761627712,
  651851512427035547605902620291001011536469885973099600203564943793402015924267745978687955008,
  54761627712,
  651851512427035547605902620291001011536469885973099600203564943793402015924267745978687955008,
  54761627712,
  159143435651131725489722319406982668832145968255151269580948472605811039044010680171372608,
  52614144064,
  159143435651131725489722319406982668832145968255151269580948472605811039044010680171372608,
  52614144064,
  159143435651131725489722319406982668832145968255151269580948472605811039044010680171372608,
  52614144064,
  159143435651131725489722319406982668832145968255151269580948472605811039044010680171372608,
  52614144064,
  912751261319345978079254176132844480558743057617658924014053174002686342616781080918762463296,
  227377414938688,
  912751261319345978079254176132844480558743057617658924014053174002686342616781080918762463296,
  227377414938688,
  912751261562120304057780804105720350567358472739138904663421806190374691551132065047037878336,
  227514820337728,
  912751261562120304057780804105720350567358472739138904663421806190374691551132065047037878336,
  227514820337728,
  912751261562120304057780804105720350567358472739138904663421806190374691551132065047037878336,
  227514820337728,
  912751261562120304057780804105720350567358472739138904663421806190374691551132065047037878336,
  227514820337728,
  652074313965566537705615644917082739020303376737201125089828208062056209597042570927631245376,
  218720874799168,
  912751261319345978079254176132844480558743057617658924014053174002686342616781080918762463296,
  227377414938688,
  912751261562120304057780804105720350567358472739138904663421806190374691551132065047037878336,
  227514820337728,
  652074313965566537705615644917082739020303376737201125089828208062056209597042570927631245376,
  218720874799168,
  652074313722792211727089016944206869011687961615721144440459575874367860662691586799355830336,
  218583469400128,
  912751261319345978079254176132844480558743057617658924014053174002686342616781080918762463296,
  227377414938688,
  912751261562120304057780804105720350567358472739138904663421806190374691551132065047037878336,
  227514820337728,
  652074313965566537705615644917082739020303376737201125089828208062056209597042570927631245376,
  218720874799168,
  652074313722792211727089016944206869011687961615721144440459575874367860662691586799355830336,
  218583469400128,
  912751261562120304057780804105720350567358472739138904663421806190374691551132065047037878336,
  227514820337728,
  652074313965566537705615644917082739020303376737201125089828208062056209597042570927631245376,
  218720874799168,
  912751261319345978079254176132844480558743057617658924014053174002686342616781080918762463296,
  227377414938688,
  912751261319345978079254176132844480558743057617658924014053174002686342616781080918762463296,
  227377414938688,
  912751261562120304057780804105720350567358472739138904663421806190374691551132065047037878336,
  227514820337728,
  912751261562120304057780804105720350567358472739138904663421806190374691551132065047037878336,
  227514820337728,
  912751261562120304057780804105720350567358472739138904663421806190374691551132065047037878336,
  227514820337728,
  912751261562120304057780804105720350567358472739138904663421806190374691551132065047037878336,
  227514820337728,
  652074313965566537705615644917082739020303376737201125089828208062056209597042570927631245376,
  218720874799168,
  912751261319345978079254176132844480558743057617658924014053174002686342616781080918762463296,
  227377414938688,
  912751261562120304057780804105720350567358472739138904663421806190374691551132065047037878336,
  227514820337728,
  652074313965566537705615644917082739020303376737201125089828208062056209597042570927631245376,
  218720874799168,
  652074313722792211727089016944206869011687961615721144440459575874367860662691586799355830336,
  218583469400128,
  912751261319345978079254176132844480558743057617658924014053174002686342616781080918762463296,
  227377414938688,
  912751261562120304057780804105720350567358472739138904663421806190374691551132065047037878336,
  227514820337728,
  652074313965566537705615644917082739020303376737201125089828208062056209597042570927631245376,
  218720874799168,
  652074313722792211727089016944206869011687961615721144440459575874367860662691586799355830336,
  218583469400128,
  912751261562120304057780804105720350567358472739138904663421806190374691551132065047037878336,
  227514820337728,
  652074313965566537705615644917082739020303376737201125089828208062056209597042570927631245376,
  218720874799168,
  912751261562120304057780804105720350567358472739138904663421806190374691551132065047037878336,
  227514820337728,
  912751261562120304057780804105720350567358472739138904663421806190374691551132065047037878336,
  227514820337728,
  912751261319345978079254176132844480558743057617658924014053174002686342616781080918762463296,
  227377414938688,
  912751261319345978079254176132844480558743057617658924014053174002686342616781080918762463296,
  227377414938688,
  652074313965566537705615644917082739020303376737201125089828208062056209597042570927631245376,
  218720874799168,
  652074313965566537705615644917082739020303376737201125089828208062056209597042570927631245376,
  218720874799168,
  652074313965566537705615644917082739020303376737201125089828208062056209597042570927631245376,
  218720874799168,
  652074313722792211727089016944206869011687961615721144440459575874367860662691586799355830336,
  218583469400128,
  912751261319345978079254176132844480558743057617658924014053174002686342616781080918762463296,
  227377414938688,
  912751261562120304057780804105720350567358472739138904663421806190374691551132065047037878336,
  227514820337728,
  912751261562120304057780804105720350567358472739138904663421806190374691551132065047037878336,
  227514820337728,
  912751261562120304057780804105720350567358472739138904663421806190374691551132065047037878336,
  227514820337728,
  38853496415613960430173351873159027029265778529507088040973824599344109807148922052672,
  51204857920,
  38853496415613960430173351873159027029265778529507088040973824599344109807148922052672,
  51204857920,
  38853496415613960430173351873159027029265778529507088040973824599344109807148922052672,
  51204857920,
  38853496415613960430173351873159027029265778529507088040973824599344109807148922052672,
  51204857920,
  38853555730111672245394457597396097729646576367056733015352753811491517860649580109888,
  3074828279872,
  38853555730111672245394457597396097729646576367056733015352753811491517860649580109888,
  3074828279872,
  38853555730111672245394457597396097729646576367056733015352753811491517860649580109888,
  3074828279872,
  38853555730111672245394457597396097729646576367056733015352753811491517860649580109888,
  3074828279872,
  651851512912880627311403405697037093275322957260163932663046248012719725208029971847117021248,
  3079190356032,
  651851512912880627311403405697037093275322957260163932663046248012719725208029971847117021248,
  3079190356032,
  651851513155654953289930033669912963283938372381643913312414880200408074142380955975392436288,
  3216595755072,
  651851513155654953289930033669912963283938372381643913312414880200408074142380955975392436288,
  3216595755072,
  651851513155654953289930033669912963283938372381643913312414880200408074142380955975392436288,
  3216595755072,
  651851513155654953289930033669912963283938372381643913312414880200408074142380955975392436288,
  3216595755072,
  651851513155654953289930033669912963283938372381643913312414880200408074142380955975392436288,
  3216595755072,
  651851513155654953289930033669912963283938372381643913312414880200408074142380955975392436288,
  3216595755072,
  651851512912880627311403405697037093275322957260163932663046248012719725208029971847117021248,
  3079190356032,
  651851512912880627311403405697037093275322957260163932663046248012719725208029971847117021248,
  3079190356032,
  651851512912880627311403405697037093275322957260163932663046248012719725208029971847117021248,
  3079190356032,
  651851512912880627311403405697037093275322957260163932663046248012719725208029971847117021248,
  3079190356032,
  651851512912880627311403405697037093275322957260163932663046248012719725208029971847117021248,
  3079190356032,
  651851512912880627311403405697037093275322957260163932663046248012719725208029971847117021248,
  3079190356032,
  651851512912880627311403405697037093275322957260163932663046248012719725208029971847117021248,
  3079190356032,
  651851512912880627311403405697037093275322957260163932663046248012719725208029971847117021248,
  3079190356032,
  651851513155654953289930033669912963283938372381643913312414880200408074142380955975392436288,
  3216595755072,
  651851513155654953289930033669912963283938372381643913312414880200408074142380955975392436288,
  3216595755072,
  651851513155654953289930033669912963283938372381643913312414880200408074142380955975392436288,
  3216595755072,
  651851513155654953289930033669912963283938372381643913312414880200408074142380955975392436288,
  3216595755072,
  651851513155654953289930033669912963283938372381643913312414880200408074142380955975392436288,
  3216595755072,
  651851513155654953289930033669912963283938372381643913312414880200408074142380955975392436288,
  3216595755072,
  159144164270537409517135698318934416300632376799464378430884879611869257157220676875853888,
  3214448271424,
  159144164270537409517135698318934416300632376799464378430884879611869257157220676875853888,
  3214448271424,
  159144164270537409517135698318934416300632376799464378430884879611869257157220676875853888,
  3214448271424,
  159144164270537409517135698318934416300632376799464378430884879611869257157220676875853888,
  3214448271424,
  159143921496211430990507725443064407685217255319483729062252691923520322806236548600438848,
  3077042872384,
  159143921496211430990507725443064407685217255319483729062252691923520322806236548600438848,
  3077042872384,
  159143921496211430990507725443064407685217255319483729062252691923520322806236548600438848,
  3077042872384,
  159143921496211430990507725443064407685217255319483729062252691923520322806236548600438848,
  3077042872384,
  159143921496211430990507725443064407685217255319483729062252691923520322806236548600438848,
  3077042872384,
  159143921496211430990507725443064407685217255319483729062252691923520322806236548600438848,
  3077042872384,
  159144164270537409517135698318934416300632376799464378430884879611869257157220676875853888,
  3214448271424,
  159144164270537409517135698318934416300632376799464378430884879611869257157220676875853888,
  3214448271424,
  159143921496211430990507725443064407685217255319483729062252691923520322806236548600438848,
  3077042872384,
  159143921496211430990507725443064407685217255319483729062252691923520322806236548600438848,
  3077042872384,
  159143921496211430990507725443064407685217255319483729062252691923520322806236548600438848,
  3077042872384,
  159143921496211430990507725443064407685217255319483729062252691923520322806236548600438848,
  3077042872384,
  159144164270537409517135698318934416300632376799464378430884879611869257157220676875853888,
  3214448271424,
  159144164270537409517135698318934416300632376799464378430884879611869257157220676875853888,
  3214448271424,
  159144164270537409517135698318934416300632376799464378430884879611869257157220676875853888,
  3214448271424,
  159144164270537409517135698318934416300632376799464378430884879611869257157220676875853888,
  3214448271424,
  159144164270537409517135698318934416300632376799464378430884879611869257157220676875853888,
  3214448271424,
  159144164270537409517135698318934416300632376799464378430884879611869257157220676875853888,
  3214448271424,
  912751260833619469473132402510922135508538882748236340018869485720945037899042958095084691520,
  224353724407872,
  912751260833619469473132402510922135508538882748236340018869485720945037899042958095084691520,
  224353724407872,
  652074313237065703120967243322284523961483786746298560445275887592626555944953463975678058560,
  215559778869312,
  652074313237065703120967243322284523961483786746298560445275887592626555944953463975678058560,
  215559778869312,
  652074313237065703120967243322284523961483786746298560445275887592626555944953463975678058560,
  215559778869312,
  652074313237065703120967243322284523961483786746298560445275887592626555944953463975678058560,
  215559778869312,
  652074313237065703120967243322284523961483786746298560445275887592626555944953463975678058560,
  215559778869312,
  652074313237065703120967243322284523961483786746298560445275887592626555944953463975678058560,
  215559778869312,
  912751260833619469473132402510922135508538882748236340018869485720945037899042958095084691520,
  224353724407872,
  912751260833619469473132402510922135508538882748236340018869485720945037899042958095084691520,
  224353724407872,
  912751260833619469473132402510922135508538882748236340018869485720945037899042958095084691520,
  224353724407872,
  912751260833619469473132402510922135508538882748236340018869485720945037899042958095084691520,
  224353724407872,
  912751260833619469473132402510922135508538882748236340018869485720945037899042958095084691520,
  224353724407872,
  912751260833619469473132402510922135508538882748236340018869485720945037899042958095084691520,
  224353724407872,
  912751261319168121430185658456673875525769712991196301317606750096321735767744926351635521600,
  224353757962304,
  912751261319168121430185658456673875525769712991196301317606750096321735767744926351635521600,
  224353757962304,
  652074313722614355078020499268036263978714616989258521744013151968003253813655432232228888640,
  215559812423744,
  652074313722614355078020499268036263978714616989258521744013151968003253813655432232228888640,
  215559812423744,
  652074313722614355078020499268036263978714616989258521744013151968003253813655432232228888640,
  215559812423744,
  652074313722614355078020499268036263978714616989258521744013151968003253813655432232228888640,
  215559812423744,
  652074313722614355078020499268036263978714616989258521744013151968003253813655432232228888640,
  215559812423744,
  652074313722614355078020499268036263978714616989258521744013151968003253813655432232228888640,
  215559812423744,
  912751261319168121430185658456673875525769712991196301317606750096321735767744926351635521600,
  224353757962304,
  912751261319168121430185658456673875525769712991196301317606750096321735767744926351635521600,
  224353757962304]
def ccsdt_t2_proj_cert_1 : List Nat := [912751261319168121430185658456673875525769712991196301317606750096321735767744926351635521600,
  224353757962304,
  912751261319168121430185658456673875525769712991196301317606750096321735767744926351635521600,
  224353757962304,
  912751261319168121430185658456673875525769712991196301317606750096321735767744926351635521600,
  224353757962304,
  912751261319168121430185658456673875525769712991196301317606750096321735767744926351635521600,
  224353757962304,
  485845079705500785406036081738853071287064332459481304219317709283762225868429860928,
  3024429523008,
  728619405684027413378911951747468486408544313108849936407006058218113209996705275968,
  3161834922048,
  485845079705500785406036081738853071287064332459481304219317709283762225868429860928,
  3024429523008,
  728619405684027413378911951747468486408544313108849936407006058218113209996705275968,
  3161834922048,
  485845079705500785406036081738853071287064332459481304219317709283762225868429860928,
  3024429523008,
  728619405684027413378911951747468486408544313108849936407006058218113209996705275968,
  3161834922048,
  485845079705500785406036081738853071287064332459481304219317709283762225868429860928,
  3024429523008,
  728619405684027413378911951747468486408544313108849936407006058218113209996705275968,
  3161834922048,
  651851512427154118705281632075114748225118782390741348667862559730978420490291849023439249472,
  55499825216,
  651851512427154118705281632075114748225118782390741348667862559730978420490291849023439249472,
  55499825216,
  651851512427154118705281632075114748225118782390741348667862559730978420490291849023439249472,
  55499825216,
  651851512427154118705281632075114748225118782390741348667862559730978420490291849023439249472,
  55499825216,
  651851512427154118705281632075114748225118782390741348667862559730978420490291849023439249472,
  55499825216,
  651851512427154118705281632075114748225118782390741348667862559730978420490291849023439249472,
  55499825216,
  651851512427154118705281632075114748225118782390741348667862559730978420490291849023439249472,
  55499825216,
  651851512427154118705281632075114748225118782390741348667862559730978420490291849023439249472,
  55499825216,
  159143435769702824868734103520719357481042385896899733878564410182215605068113724922667072,
  53352341568,
  159143435769702824868734103520719357481042385896899733878564410182215605068113724922667072,
  53352341568,
  159143435769702824868734103520719357481042385896899733878564410182215605068113724922667072,
  53352341568,
  159143435769702824868734103520719357481042385896899733878564410182215605068113724922667072,
  53352341568,
  159143435769702824868734103520719357481042385896899733878564410182215605068113724922667072,
  53352341568,
  159143435769702824868734103520719357481042385896899733878564410182215605068113724922667072,
  53352341568,
  159143435769702824868734103520719357481042385896899733878564410182215605068113724922667072,
  53352341568,
  159143435769702824868734103520719357481042385896899733878564410182215605068113724922667072,
  53352341568,
  651851512912702770662334888020866488242349612633701309966599824106355118358993817279990079552,
  55533379648,
  651851512912702770662334888020866488242349612633701309966599824106355118358993817279990079552,
  55533379648,
  651851512912702770662334888020866488242349612633701309966599824106355118358993817279990079552,
  55533379648,
  651851512912702770662334888020866488242349612633701309966599824106355118358993817279990079552,
  55533379648,
  651851512912702770662334888020866488242349612633701309966599824106355118358993817279990079552,
  55533379648,
  651851512912702770662334888020866488242349612633701309966599824106355118358993817279990079552,
  55533379648,
  651851512912702770662334888020866488242349612633701309966599824106355118358993817279990079552,
  55533379648,
  651851512912702770662334888020866488242349612633701309966599824106355118358993817279990079552,
  55533379648,
  159143921318354781921990049272459374711872628856861032615828785558913473770081981473497152,
  53385896000,
  159143921318354781921990049272459374711872628856861032615828785558913473770081981473497152,
  53385896000,
  159143921318354781921990049272459374711872628856861032615828785558913473770081981473497152,
  53385896000,
  159143921318354781921990049272459374711872628856861032615828785558913473770081981473497152,
  53385896000,
  159143921318354781921990049272459374711872628856861032615828785558913473770081981473497152,
  53385896000,
  159143921318354781921990049272459374711872628856861032615828785558913473770081981473497152,
  53385896000,
  159143921318354781921990049272459374711872628856861032615828785558913473770081981473497152,
  53385896000,
  159143921318354781921990049272459374711872628856861032615828785558913473770081981473497152,
  53385896000,
  652074313236947132021588231538170787272834890328656811980978271655050151378929360930926764096,
  215559040671808,
  652074313236947132021588231538170787272834890328656811980978271655050151378929360930926764096,
  215559040671808,
  912751260833500898373753390726808398819889986330594591554571869783368633333018855050333397056,
  224352986210368,
  912751260833500898373753390726808398819889986330594591554571869783368633333018855050333397056,
  224352986210368,
  652074313236947132021588231538170787272834890328656811980978271655050151378929360930926764096,
  215559040671808,
  652074313236947132021588231538170787272834890328656811980978271655050151378929360930926764096,
  215559040671808,
  912751260833500898373753390726808398819889986330594591554571869783368633333018855050333397056,
  224352986210368,
  912751260833500898373753390726808398819889986330594591554571869783368633333018855050333397056,
  224352986210368,
  912751261319345978079254176132844480558743057617658924014053174002686342616781080918762463296,
  227377414938688,
  912751261562120304057780804105720350567358472739138904663421806190374691551132065047037878336,
  227514820337728,
  652074313965566537705615644917082739020303376737201125089828208062056209597042570927631245376,
  218720874799168,
  652074313965566537705615644917082739020303376737201125089828208062056209597042570927631245376,
  218720874799168,
  652074313965566537705615644917082739020303376737201125089828208062056209597042570927631245376,
  218720874799168,
  652074313965566537705615644917082739020303376737201125089828208062056209597042570927631245376,
  218720874799168,
  652074313722792211727089016944206869011687961615721144440459575874367860662691586799355830336,
  218583469400128,
  652074313722792211727089016944206869011687961615721144440459575874367860662691586799355830336,
  218583469400128,
  912751261319345978079254176132844480558743057617658924014053174002686342616781080918762463296,
  227377414938688,
  912751261319345978079254176132844480558743057617658924014053174002686342616781080918762463296,
  227377414938688,
  912751261562120304057780804105720350567358472739138904663421806190374691551132065047037878336,
  227514820337728,
  912751261562120304057780804105720350567358472739138904663421806190374691551132065047037878336,
  227514820337728,
  912751261562120304057780804105720350567358472739138904663421806190374691551132065047037878336,
  227514820337728,
  912751261562120304057780804105720350567358472739138904663421806190374691551132065047037878336,
  227514820337728,
  912751261319345978079254176132844480558743057617658924014053174002686342616781080918762463296,
  227377414938688,
  912751261562120304057780804105720350567358472739138904663421806190374691551132065047037878336,
  227514820337728,
  652074313722792211727089016944206869011687961615721144440459575874367860662691586799355830336,
  218583469400128,
  652074313722792211727089016944206869011687961615721144440459575874367860662691586799355830336,
  218583469400128,
  652074313722792211727089016944206869011687961615721144440459575874367860662691586799355830336,
  218583469400128,
  652074313722792211727089016944206869011687961615721144440459575874367860662691586799355830336,
  218583469400128,
  652074313965566537705615644917082739020303376737201125089828208062056209597042570927631245376,
  218720874799168,
  652074313965566537705615644917082739020303376737201125089828208062056209597042570927631245376,
  218720874799168,
  912751261562120304057780804105720350567358472739138904663421806190374691551132065047037878336,
  227514820337728,
  912751261562120304057780804105720350567358472739138904663421806190374691551132065047037878336,
  227514820337728,
  912751261319345978079254176132844480558743057617658924014053174002686342616781080918762463296,
  227377414938688,
  912751261319345978079254176132844480558743057617658924014053174002686342616781080918762463296,
  227377414938688,
  912751261319345978079254176132844480558743057617658924014053174002686342616781080918762463296,
  227377414938688,
  912751261319345978079254176132844480558743057617658924014053174002686342616781080918762463296,
  227377414938688,
  652074313965566537705615644917082739020303376737201125089828208062056209597042570927631245376,
  218720874799168,
  652074313965566537705615644917082739020303376737201125089828208062056209597042570927631245376,
  218720874799168,
  652074313965566537705615644917082739020303376737201125089828208062056209597042570927631245376,
  218720874799168,
  652074313965566537705615644917082739020303376737201125089828208062056209597042570927631245376,
  218720874799168,
  652074313722792211727089016944206869011687961615721144440459575874367860662691586799355830336,
  218583469400128,
  652074313722792211727089016944206869011687961615721144440459575874367860662691586799355830336,
  218583469400128,
  652074313722792211727089016944206869011687961615721144440459575874367860662691586799355830336,
  218583469400128,
  652074313722792211727089016944206869011687961615721144440459575874367860662691586799355830336,
  218583469400128,
  652074313722792211727089016944206869011687961615721144440459575874367860662691586799355830336,
  218583469400128,
  652074313722792211727089016944206869011687961615721144440459575874367860662691586799355830336,
  218583469400128,
  652074313965566537705615644917082739020303376737201125089828208062056209597042570927631245376,
  218720874799168,
  652074313965566537705615644917082739020303376737201125089828208062056209597042570927631245376,
  218720874799168,
  912751261319345978079254176132844480558743057617658924014053174002686342616781080918762463296,
  227377414938688,
  652074313722792211727089016944206869011687961615721144440459575874367860662691586799355830336,
  218583469400128,
  912751261319345978079254176132844480558743057617658924014053174002686342616781080918762463296,
  227377414938688,
  652074313722792211727089016944206869011687961615721144440459575874367860662691586799355830336,
  218583469400128,
  912751261562120304057780804105720350567358472739138904663421806190374691551132065047037878336,
  227514820337728,
  652074313965566537705615644917082739020303376737201125089828208062056209597042570927631245376,
  218720874799168,
  912751261562120304057780804105720350567358472739138904663421806190374691551132065047037878336,
  227514820337728,
  652074313965566537705615644917082739020303376737201125089828208062056209597042570927631245376,
  218720874799168,
  652074313965566537705615644917082739020303376737201125089828208062056209597042570927631245376,
  218720874799168,
  912751261562120304057780804105720350567358472739138904663421806190374691551132065047037878336,
  227514820337728,
  912751261319345978079254176132844480558743057617658924014053174002686342616781080918762463296,
  227377414938688,
  912751261319345978079254176132844480558743057617658924014053174002686342616781080918762463296,
  227377414938688,
  912751261562120304057780804105720350567358472739138904663421806190374691551132065047037878336,
  227514820337728,
  912751261562120304057780804105720350567358472739138904663421806190374691551132065047037878336,
  227514820337728,
  912751261562120304057780804105720350567358472739138904663421806190374691551132065047037878336,
  227514820337728,
  912751261562120304057780804105720350567358472739138904663421806190374691551132065047037878336,
  227514820337728,
  912751261562120304057780804105720350567358472739138904663421806190374691551132065047037878336,
  227514820337728,
  912751261562120304057780804105720350567358472739138904663421806190374691551132065047037878336,
  227514820337728,
  912751261319345978079254176132844480558743057617658924014053174002686342616781080918762463296,
  227377414938688,
  912751261319345978079254176132844480558743057617658924014053174002686342616781080918762463296,
  227377414938688,
  912751261319345978079254176132844480558743057617658924014053174002686342616781080918762463296,
  227377414938688,
  912751261319345978079254176132844480558743057617658924014053174002686342616781080918762463296,
  227377414938688,
  912751261319345978079254176132844480558743057617658924014053174002686342616781080918762463296,
  227377414938688,
  652074313722792211727089016944206869011687961615721144440459575874367860662691586799355830336,
  218583469400128,
  912751261319345978079254176132844480558743057617658924014053174002686342616781080918762463296,
  227377414938688,
  652074313722792211727089016944206869011687961615721144440459575874367860662691586799355830336,
  218583469400128,
  912751261562120304057780804105720350567358472739138904663421806190374691551132065047037878336,
  227514820337728,
  652074313965566537705615644917082739020303376737201125089828208062056209597042570927631245376,
  218720874799168,
  912751261562120304057780804105720350567358472739138904663421806190374691551132065047037878336,
  227514820337728,
  652074313965566537705615644917082739020303376737201125089828208062056209597042570927631245376,
  218720874799168,
  652074313965566537705615644917082739020303376737201125089828208062056209597042570927631245376,
  218720874799168,
  912751261562120304057780804105720350567358472739138904663421806190374691551132065047037878336,
  227514820337728,
  651851512912880627311403405697037093275322957260163932663046248012719725208029971847117021248,
  3079190356032,
  651851513155654953289930033669912963283938372381643913312414880200408074142380955975392436288,
  3216595755072,
  651851512912880627311403405697037093275322957260163932663046248012719725208029971847117021248,
  3079190356032,
  651851513155654953289930033669912963283938372381643913312414880200408074142380955975392436288,
  3216595755072,
  651851512912880627311403405697037093275322957260163932663046248012719725208029971847117021248,
  3079190356032,
  651851513155654953289930033669912963283938372381643913312414880200408074142380955975392436288,
  3216595755072,
  651851512912880627311403405697037093275322957260163932663046248012719725208029971847117021248,
  3079190356032,
  651851513155654953289930033669912963283938372381643913312414880200408074142380955975392436288,
  3216595755072,
  651851512912880627311403405697037093275322957260163932663046248012719725208029971847117021248,
  3079190356032,
  651851513155654953289930033669912963283938372381643913312414880200408074142380955975392436288,
  3216595755072,
  651851512912880627311403405697037093275322957260163932663046248012719725208029971847117021248,
  3079190356032,
  651851513155654953289930033669912963283938372381643913312414880200408074142380955975392436288,
  3216595755072,
  651851512912880627311403405697037093275322957260163932663046248012719725208029971847117021248,
  3079190356032,
  651851513155654953289930033669912963283938372381643913312414880200408074142380955975392436288,
  3216595755072,
  651851512912880627311403405697037093275322957260163932663046248012719725208029971847117021248,
  3079190356032,
  651851513155654953289930033669912963283938372381643913312414880200408074142380955975392436288,
  3216595755072,
  651851512912880627311403405697037093275322957260163932663046248012719725208029971847117021248,
  3079190356032,
  651851513155654953289930033669912963283938372381643913312414880200408074142380955975392436288,
  3216595755072,
  651851512912880627311403405697037093275322957260163932663046248012719725208029971847117021248,
  3079190356032,
  651851513155654953289930033669912963283938372381643913312414880200408074142380955975392436288,
  3216595755072,
  651851512912880627311403405697037093275322957260163932663046248012719725208029971847117021248,
  3079190356032,
  651851513155654953289930033669912963283938372381643913312414880200408074142380955975392436288,
  3216595755072,
  651851512912880627311403405697037093275322957260163932663046248012719725208029971847117021248,
  3079190356032,
  651851513155654953289930033669912963283938372381643913312414880200408074142380955975392436288,
  3216595755072,
  159143921496211430990507725443064407685217255319483729062252691923520322806236548600438848,
  3077042872384,
  159144164270537409517135698318934416300632376799464378430884879611869257157220676875853888,
  3214448271424,
  159143921496211430990507725443064407685217255319483729062252691923520322806236548600438848,
  3077042872384,
  159144164270537409517135698318934416300632376799464378430884879611869257157220676875853888,
  3214448271424,
  159143921496211430990507725443064407685217255319483729062252691923520322806236548600438848,
  3077042872384,
  159144164270537409517135698318934416300632376799464378430884879611869257157220676875853888,
  3214448271424,
  159143921496211430990507725443064407685217255319483729062252691923520322806236548600438848,
  3077042872384,
  159144164270537409517135698318934416300632376799464378430884879611869257157220676875853888,
  3214448271424,
  159143921496211430990507725443064407685217255319483729062252691923520322806236548600438848,
  3077042872384,
  159144164270537409517135698318934416300632376799464378430884879611869257157220676875853888,
  3214448271424,
  159143921496211430990507725443064407685217255319483729062252691923520322806236548600438848,
  3077042872384,
  159144164270537409517135698318934416300632376799464378430884879611869257157220676875853888,
  3214448271424,
  159143921496211430990507725443064407685217255319483729062252691923520322806236548600438848,
  3077042872384,
  159144164270537409517135698318934416300632376799464378430884879611869257157220676875853888,
  3214448271424,
  159143921496211430990507725443064407685217255319483729062252691923520322806236548600438848,
  3077042872384,
  159144164270537409517135698318934416300632376799464378430884879611869257157220676875853888,
  3214448271424,
  159143921496211430990507725443064407685217255319483729062252691923520322806236548600438848,
  3077042872384,
  159144164270537409517135698318934416300632376799464378430884879611869257157220676875853888,
  3214448271424,
  159143921496211430990507725443064407685217255319483729062252691923520322806236548600438848,
  3077042872384,
  159144164270537409517135698318934416300632376799464378430884879611869257157220676875853888,
  3214448271424,
  159143921496211430990507725443064407685217255319483729062252691923520322806236548600438848,
  3077042872384,
  159144164270537409517135698318934416300632376799464378430884879611869257157220676875853888,
  3214448271424,
  159143921496211430990507725443064407685217255319483729062252691923520322806236548600438848,
  3077042872384,
  159144164270537409517135698318934416300632376799464378430884879611869257157220676875853888,
  3214448271424,
  652074313237065703120967243322284523961483786746298560445275887592626555944953463975678058560,
  215559778869312,
  652074313237065703120967243322284523961483786746298560445275887592626555944953463975678058560,
  215559778869312,
  912751260833619469473132402510922135508538882748236340018869485720945037899042958095084691520,
  224353724407872,
  912751260833619469473132402510922135508538882748236340018869485720945037899042958095084691520,
  224353724407872,
  652074313237065703120967243322284523961483786746298560445275887592626555944953463975678058560,
  215559778869312,
  652074313237065703120967243322284523961483786746298560445275887592626555944953463975678058560,
  215559778869312,
  912751260833619469473132402510922135508538882748236340018869485720945037899042958095084691520,
  224353724407872,
  912751260833619469473132402510922135508538882748236340018869485720945037899042958095084691520,
  224353724407872,
  652074313237065703120967243322284523961483786746298560445275887592626555944953463975678058560,
  215559778869312,
  652074313237065703120967243322284523961483786746298560445275887592626555944953463975678058560,
  215559778869312,
  912751260833619469473132402510922135508538882748236340018869485720945037899042958095084691520,
  224353724407872,
  912751260833619469473132402510922135508538882748236340018869485720945037899042958095084691520,
  224353724407872,
  652074313237065703120967243322284523961483786746298560445275887592626555944953463975678058560,
  215559778869312,
  652074313237065703120967243322284523961483786746298560445275887592626555944953463975678058560,
  215559778869312,
  912751260833619469473132402510922135508538882748236340018869485720945037899042958095084691520,
  224353724407872,
  912751260833619469473132402510922135508538882748236340018869485720945037899042958095084691520,
  224353724407872,
  652074313237065703120967243322284523961483786746298560445275887592626555944953463975678058560,
  215559778869312,
  652074313237065703120967243322284523961483786746298560445275887592626555944953463975678058560,
  215559778869312,
  912751260833619469473132402510922135508538882748236340018869485720945037899042958095084691520,
  224353724407872,
  912751260833619469473132402510922135508538882748236340018869485720945037899042958095084691520,
  224353724407872,
  652074313237065703120967243322284523961483786746298560445275887592626555944953463975678058560,
  215559778869312,
  652074313237065703120967243322284523961483786746298560445275887592626555944953463975678058560,
  215559778869312,
  912751260833619469473132402510922135508538882748236340018869485720945037899042958095084691520,
  224353724407872,
  912751260833619469473132402510922135508538882748236340018869485720945037899042958095084691520,
  224353724407872,
  652074313722614355078020499268036263978714616989258521744013151968003253813655432232228888640,
  215559812423744,
  652074313722614355078020499268036263978714616989258521744013151968003253813655432232228888640,
  215559812423744,
  912751261319168121430185658456673875525769712991196301317606750096321735767744926351635521600,
  224353757962304,
  912751261319168121430185658456673875525769712991196301317606750096321735767744926351635521600,
  224353757962304]
def ccsdt_t2_proj_cert_2 : List Nat := [652074313722614355078020499268036263978714616989258521744013151968003253813655432232228888640,
  215559812423744,
  652074313722614355078020499268036263978714616989258521744013151968003253813655432232228888640,
  215559812423744,
  912751261319168121430185658456673875525769712991196301317606750096321735767744926351635521600,
  224353757962304,
  912751261319168121430185658456673875525769712991196301317606750096321735767744926351635521600,
  224353757962304,
  652074313722614355078020499268036263978714616989258521744013151968003253813655432232228888640,
  215559812423744,
  652074313722614355078020499268036263978714616989258521744013151968003253813655432232228888640,
  215559812423744,
  912751261319168121430185658456673875525769712991196301317606750096321735767744926351635521600,
  224353757962304,
  912751261319168121430185658456673875525769712991196301317606750096321735767744926351635521600,
  224353757962304,
  652074313722614355078020499268036263978714616989258521744013151968003253813655432232228888640,
  215559812423744,
  652074313722614355078020499268036263978714616989258521744013151968003253813655432232228888640,
  215559812423744,
  912751261319168121430185658456673875525769712991196301317606750096321735767744926351635521600,
  224353757962304,
  912751261319168121430185658456673875525769712991196301317606750096321735767744926351635521600,
  224353757962304,
  652074313722614355078020499268036263978714616989258521744013151968003253813655432232228888640,
  215559812423744,
  652074313722614355078020499268036263978714616989258521744013151968003253813655432232228888640,
  215559812423744,
  912751261319168121430185658456673875525769712991196301317606750096321735767744926351635521600,
  224353757962304,
  912751261319168121430185658456673875525769712991196301317606750096321735767744926351635521600,
  224353757962304,
  652074313722614355078020499268036263978714616989258521744013151968003253813655432232228888640,
  215559812423744,
  652074313722614355078020499268036263978714616989258521744013151968003253813655432232228888640,
  215559812423744,
  912751261319168121430185658456673875525769712991196301317606750096321735767744926351635521600,
  224353757962304,
  912751261319168121430185658456673875525769712991196301317606750096321735767744926351635521600,
  224353757962304,
  652074313722792211727089016944206869011687961615721144440459575874367860662691586799355830336,
  218583469400128,
  652074313965566537705615644917082739020303376737201125089828208062056209597042570927631245376,
  218720874799168,
  912751261319345978079254176132844480558743057617658924014053174002686342616781080918762463296,
  227377414938688,
  912751261562120304057780804105720350567358472739138904663421806190374691551132065047037878336,
  227514820337728,
  652074313722792211727089016944206869011687961615721144440459575874367860662691586799355830336,
  218583469400128,
  652074313965566537705615644917082739020303376737201125089828208062056209597042570927631245376,
  218720874799168,
  912751261319345978079254176132844480558743057617658924014053174002686342616781080918762463296,
  227377414938688,
  912751261562120304057780804105720350567358472739138904663421806190374691551132065047037878336,
  227514820337728,
  652074313722792211727089016944206869011687961615721144440459575874367860662691586799355830336,
  218583469400128,
  652074313965566537705615644917082739020303376737201125089828208062056209597042570927631245376,
  218720874799168,
  912751261319345978079254176132844480558743057617658924014053174002686342616781080918762463296,
  227377414938688,
  912751261562120304057780804105720350567358472739138904663421806190374691551132065047037878336,
  227514820337728,
  652074313722792211727089016944206869011687961615721144440459575874367860662691586799355830336,
  218583469400128,
  652074313965566537705615644917082739020303376737201125089828208062056209597042570927631245376,
  218720874799168,
  912751261319345978079254176132844480558743057617658924014053174002686342616781080918762463296,
  227377414938688,
  912751261562120304057780804105720350567358472739138904663421806190374691551132065047037878336,
  227514820337728,
  652074313722792211727089016944206869011687961615721144440459575874367860662691586799355830336,
  218583469400128,
  652074313965566537705615644917082739020303376737201125089828208062056209597042570927631245376,
  218720874799168,
  912751261319345978079254176132844480558743057617658924014053174002686342616781080918762463296,
  227377414938688,
  912751261562120304057780804105720350567358472739138904663421806190374691551132065047037878336,
  227514820337728,
  652074313722792211727089016944206869011687961615721144440459575874367860662691586799355830336,
  218583469400128,
  652074313965566537705615644917082739020303376737201125089828208062056209597042570927631245376,
  218720874799168,
  912751261319345978079254176132844480558743057617658924014053174002686342616781080918762463296,
  227377414938688,
  912751261562120304057780804105720350567358472739138904663421806190374691551132065047037878336,
  227514820337728,
  652074313722792211727089016944206869011687961615721144440459575874367860662691586799355830336,
  218583469400128,
  652074313965566537705615644917082739020303376737201125089828208062056209597042570927631245376,
  218720874799168,
  912751261319345978079254176132844480558743057617658924014053174002686342616781080918762463296,
  227377414938688,
  912751261562120304057780804105720350567358472739138904663421806190374691551132065047037878336,
  227514820337728,
  652074313722792211727089016944206869011687961615721144440459575874367860662691586799355830336,
  218583469400128,
  652074313965566537705615644917082739020303376737201125089828208062056209597042570927631245376,
  218720874799168,
  912751261319345978079254176132844480558743057617658924014053174002686342616781080918762463296,
  227377414938688,
  912751261562120304057780804105720350567358472739138904663421806190374691551132065047037878336,
  227514820337728,
  652074313722792211727089016944206869011687961615721144440459575874367860662691586799355830336,
  218583469400128,
  652074313965566537705615644917082739020303376737201125089828208062056209597042570927631245376,
  218720874799168,
  912751261319345978079254176132844480558743057617658924014053174002686342616781080918762463296,
  227377414938688,
  912751261562120304057780804105720350567358472739138904663421806190374691551132065047037878336,
  227514820337728,
  652074313722792211727089016944206869011687961615721144440459575874367860662691586799355830336,
  218583469400128,
  652074313965566537705615644917082739020303376737201125089828208062056209597042570927631245376,
  218720874799168,
  912751261319345978079254176132844480558743057617658924014053174002686342616781080918762463296,
  227377414938688,
  912751261562120304057780804105720350567358472739138904663421806190374691551132065047037878336,
  227514820337728,
  652074313722792211727089016944206869011687961615721144440459575874367860662691586799355830336,
  218583469400128,
  652074313965566537705615644917082739020303376737201125089828208062056209597042570927631245376,
  218720874799168,
  912751261319345978079254176132844480558743057617658924014053174002686342616781080918762463296,
  227377414938688,
  912751261562120304057780804105720350567358472739138904663421806190374691551132065047037878336,
  227514820337728,
  652074313722792211727089016944206869011687961615721144440459575874367860662691586799355830336,
  218583469400128,
  652074313965566537705615644917082739020303376737201125089828208062056209597042570927631245376,
  218720874799168,
  912751261319345978079254176132844480558743057617658924014053174002686342616781080918762463296,
  227377414938688,
  912751261562120304057780804105720350567358472739138904663421806190374691551132065047037878336,
  227514820337728,
  652074313722792211727089016944206869011687961615721144440459575874367860662691586799355830336,
  218583469400128,
  652074313965566537705615644917082739020303376737201125089828208062056209597042570927631245376,
  218720874799168,
  912751261319345978079254176132844480558743057617658924014053174002686342616781080918762463296,
  227377414938688,
  912751261562120304057780804105720350567358472739138904663421806190374691551132065047037878336,
  227514820337728,
  652074313722792211727089016944206869011687961615721144440459575874367860662691586799355830336,
  218583469400128,
  652074313965566537705615644917082739020303376737201125089828208062056209597042570927631245376,
  218720874799168,
  912751261319345978079254176132844480558743057617658924014053174002686342616781080918762463296,
  227377414938688,
  912751261562120304057780804105720350567358472739138904663421806190374691551132065047037878336,
  227514820337728,
  652074313722792211727089016944206869011687961615721144440459575874367860662691586799355830336,
  218583469400128,
  652074313965566537705615644917082739020303376737201125089828208062056209597042570927631245376,
  218720874799168,
  912751261319345978079254176132844480558743057617658924014053174002686342616781080918762463296,
  227377414938688,
  912751261562120304057780804105720350567358472739138904663421806190374691551132065047037878336,
  227514820337728,
  652074313722792211727089016944206869011687961615721144440459575874367860662691586799355830336,
  218583469400128,
  652074313965566537705615644917082739020303376737201125089828208062056209597042570927631245376,
  218720874799168,
  912751261319345978079254176132844480558743057617658924014053174002686342616781080918762463296,
  227377414938688,
  912751261562120304057780804105720350567358472739138904663421806190374691551132065047037878336,
  227514820337728,
  652074313722792211727089016944206869011687961615721144440459575874367860662691586799355830336,
  218583469400128,
  652074313965566537705615644917082739020303376737201125089828208062056209597042570927631245376,
  218720874799168,
  912751261319345978079254176132844480558743057617658924014053174002686342616781080918762463296,
  227377414938688,
  912751261562120304057780804105720350567358472739138904663421806190374691551132065047037878336,
  227514820337728,
  652074313722792211727089016944206869011687961615721144440459575874367860662691586799355830336,
  218583469400128,
  652074313965566537705615644917082739020303376737201125089828208062056209597042570927631245376,
  218720874799168,
  912751261319345978079254176132844480558743057617658924014053174002686342616781080918762463296,
  227377414938688,
  912751261562120304057780804105720350567358472739138904663421806190374691551132065047037878336,
  227514820337728,
  652074313722792211727089016944206869011687961615721144440459575874367860662691586799355830336,
  218583469400128,
  652074313965566537705615644917082739020303376737201125089828208062056209597042570927631245376,
  218720874799168,
  912751261319345978079254176132844480558743057617658924014053174002686342616781080918762463296,
  227377414938688,
  912751261562120304057780804105720350567358472739138904663421806190374691551132065047037878336,
  227514820337728,
  652074313722792211727089016944206869011687961615721144440459575874367860662691586799355830336,
  218583469400128,
  652074313965566537705615644917082739020303376737201125089828208062056209597042570927631245376,
  218720874799168,
  912751261319345978079254176132844480558743057617658924014053174002686342616781080918762463296,
  227377414938688,
  912751261562120304057780804105720350567358472739138904663421806190374691551132065047037878336,
  227514820337728,
  652074313722792211727089016944206869011687961615721144440459575874367860662691586799355830336,
  218583469400128,
  652074313965566537705615644917082739020303376737201125089828208062056209597042570927631245376,
  218720874799168,
  912751261319345978079254176132844480558743057617658924014053174002686342616781080918762463296,
  227377414938688,
  912751261562120304057780804105720350567358472739138904663421806190374691551132065047037878336,
  227514820337728,
  652074313722792211727089016944206869011687961615721144440459575874367860662691586799355830336,
  218583469400128,
  652074313965566537705615644917082739020303376737201125089828208062056209597042570927631245376,
  218720874799168,
  912751261319345978079254176132844480558743057617658924014053174002686342616781080918762463296,
  227377414938688,
  912751261562120304057780804105720350567358472739138904663421806190374691551132065047037878336,
  227514820337728,
  652074313722792211727089016944206869011687961615721144440459575874367860662691586799355830336,
  218583469400128,
  652074313965566537705615644917082739020303376737201125089828208062056209597042570927631245376,
  218720874799168,
  912751261319345978079254176132844480558743057617658924014053174002686342616781080918762463296,
  227377414938688,
  912751261562120304057780804105720350567358472739138904663421806190374691551132065047037878336,
  227514820337728,
  652074313722792211727089016944206869011687961615721144440459575874367860662691586799355830336,
  218583469400128,
  652074313965566537705615644917082739020303376737201125089828208062056209597042570927631245376,
  218720874799168,
  912751261319345978079254176132844480558743057617658924014053174002686342616781080918762463296,
  227377414938688,
  912751261562120304057780804105720350567358472739138904663421806190374691551132065047037878336,
  227514820337728,
  67903552,
  67903552,
  67895362,
  67895362,
  67379392,
  67379392,
  67371202,
  67371202,
  5436612672,
  5436612672,
  5436604482,
  5436604482,
  5436088512,
  5436088512,
  5436080322,
  5436080322,
  5436612672,
  5436612672,
  5436604482,
  5436604482,
  5436088512,
  5436088512,
  5436080322,
  5436080322,
  5436612672,
  5436612672,
  5436604482,
  5436604482,
  5436088512,
  5436088512,
  5436080322,
  5436080322,
  5369503808,
  5369503808,
  5369495618,
  5369495618,
  5368979648,
  5368979648,
  5368971458,
  5368971458,
  31204079050816,
  31204079050816,
  22410133504066,
  22410133504066,
  31066673127616,
  31066673127616,
  22272727580866,
  22272727580866,
  417753473088,
  417753473088,
  417753464898,
  417753464898,
  280347549888,
  280347549888,
  280347541698,
  280347541698,
  31204079050816,
  31204079050816,
  31204079042626,
  31204079042626,
  31066673127616,
  31066673127616,
  31066673119426,
  31066673119426,
  412384763968,
  412384763968,
  412384755778,
  412384755778,
  274978840768,
  274978840768,
  274978832578,
  274978832578,
  30791762190400,
  30791762190400,
  21997816643650,
  21997816643650,
  30791761666240,
  30791761666240,
  21997816119490,
  21997816119490,
  31204079050816,
  31204079050816,
  31204079042626,
  31204079042626,
  31204078526656,
  31204078526656,
  31204078518466,
  31204078518466,
  5436612672,
  5436612672,
  5436604482,
  5436604482,
  5436088512,
  5436088512,
  5436080322,
  5436080322,
  31066673651776,
  31066673651776,
  31066673643586,
  31066673643586,
  31066673127616,
  31066673127616,
  31066673119426,
  31066673119426,
  417753473088,
  417753473088,
  417753464898,
  417753464898,
  417752948928,
  417752948928,
  417752940738,
  417752940738,
  30791762190400,
  30791762190400,
  30791762182210,
  30791762182210,
  30791761666240,
  30791761666240,
  30791761658050,
  30791761658050,
  31204079050816,
  31204079050816,
  31204079042626,
  31204079042626,
  31204078526656,
  31204078526656,
  31204078518466,
  31204078518466,
  67903552,
  67903552,
  67895362,
  67895362,
  67379392,
  67379392,
  67371202,
  67371202,
  31204079050816,
  31204079050816,
  22410133504066,
  22410133504066,
  31204078526656,
  31204078526656,
  22410132979906,
  22410132979906,
  30791695081536,
  30791695081536,
  21997749534786,
  21997749534786,
  30791694557376,
  30791694557376,
  21997749010626,
  21997749010626,
  22410133512256,
  22410133512256,
  22410133504066,
  22410133504066,
  22410132988096,
  22410132988096,
  22410132979906,
  22410132979906,
  417753473088,
  417753473088,
  417753464898,
  417753464898,
  417752948928,
  417752948928,
  417752940738,
  417752940738]
def ccsdt_t2_proj_cert_3 : List Nat := [30791762190400,
  30791762190400,
  30791762182210,
  30791762182210,
  30791761666240,
  30791761666240,
  30791761658050,
  30791761658050,
  31204079050816,
  31204079050816,
  31204079042626,
  31204079042626,
  31204078526656,
  31204078526656,
  31204078518466,
  31204078518466,
  5369503808,
  5369503808,
  5369495618,
  5369495618,
  5368979648,
  5368979648,
  5368971458,
  5368971458,
  417753473088,
  417753473088,
  417753464898,
  417753464898,
  417752948928,
  417752948928,
  417752940738,
  417752940738,
  30791762190400,
  30791762190400,
  30791762182210,
  30791762182210,
  30791761666240,
  30791761666240,
  30791761658050,
  30791761658050,
  31204079050816,
  31204079050816,
  31204079042626,
  31204079042626,
  31204078526656,
  31204078526656,
  31204078518466,
  31204078518466,
  31066673651776,
  31066673651776,
  31066673643586,
  31066673643586,
  31066673127616,
  31066673127616,
  31066673119426,
  31066673119426,
  31204079050816,
  31204079050816,
  31204079042626,
  31204079042626,
  31204078526656,
  31204078526656,
  31204078518466,
  31204078518466,
  412384763968,
  412384763968,
  412384755778,
  412384755778,
  412384239808,
  412384239808,
  412384231618,
  412384231618,
  31204079050816,
  31204079050816,
  31204079042626,
  31204079042626,
  22410132988096,
  22410132988096,
  22410132979906,
  22410132979906,
  31204079050816,
  31204079050816,
  31204079042626,
  31204079042626,
  22272727589056,
  22272727589056,
  22272727580866,
  22272727580866,
  5436612672,
  5436612672,
  5436604482,
  5436604482,
  5436088512,
  5436088512,
  5436080322,
  5436080322,
  30791695081536,
  30791695081536,
  30791695073346,
  30791695073346,
  30791694557376,
  30791694557376,
  30791694549186,
  30791694549186,
  417753473088,
  417753473088,
  417753464898,
  417753464898,
  417752948928,
  417752948928,
  417752940738,
  417752940738,
  30791762190400,
  30791762190400,
  30791762182210,
  30791762182210,
  30791761666240,
  30791761666240,
  30791761658050,
  30791761658050,
  794688,
  794688,
  786498,
  786498,
  270528,
  270528,
  262338,
  262338]

/-- Check ccsdt_t2_proj. C75 -/
theorem ccsdt_t2_proj : isZero kinds [aᵥ, bᵥ, iₒ, jₒ] 1152
    (Wick.projP ⟨1, [], [(true, 0), (true, 2), (false, 3), (false, 1)]⟩ [1, 3, 0, 2] [([], 1/4), ([3], 1/144), ([2], 1/16), ([1], 1/4), ([3, 3], 1/10368), ([2, 3], 1/576), ([2, 2], 1/128), ([1, 3], 1/144), ([1, 2], 1/16), ([1, 1], 1/8), ([3, 3, 3], 1/1119744), ([2, 3, 3], 1/41472), ([2, 2, 3], 1/4608), ([2, 2, 2], 1/1536), ([1, 3, 3], 1/10368), ([1, 2, 3], 1/576), ([1, 2, 2], 1/128), ([1, 1, 3], 1/288), ([1, 1, 2], 1/32), ([1, 1, 1], 1/24), ([3, 3, 3, 3], 1/161243136), ([2, 3, 3, 3], 1/4478976), ([2, 2, 3, 3], 1/331776), ([2, 2, 2, 3], 1/55296), ([2, 2, 2, 2], 1/24576), ([1, 3, 3, 3], 1/1119744), ([1, 2, 3, 3], 1/41472), ([1, 2, 2, 3], 1/4608), ([1, 2, 2, 2], 1/1536), ([1, 1, 3, 3], 1/20736), ([1, 1, 2, 3], 1/1152), ([1, 1, 2, 2], 1/256), ([1, 1, 1, 3], 1/864), ([1, 1, 1, 2], 1/96), ([1, 1, 1, 1], 1/96)] ++ (Prog.scale (-1) (Prog.outs [2, 3, 0, 1] (ccsdt_t2eqns))))
    (ccsdt_t2_proj_cert_0 ++ (ccsdt_t2_proj_cert_1 ++ (ccsdt_t2_proj_cert_2 ++ (ccsdt_t2_proj_cert_3)))) = true := by decide +kernel

def ccsdt_t3_proj_cert_0 : List Nat := [59285549689505892056868344324448208820874232148807968788202283012051523450192198,
  1108263278,
  242952182627595145649046475041588759747942603345815056094052955783387138696476909896,
  139251868010,
  23313923844298813039579362668900609222391150044054436110022971389923237071183893241860,
  13199520574276,
  23313923844298813039579362668900609222391150044054436110022971389923237071183926804486,
  13199554136938,
  994646591390672663322548610030330329097329943343159732496865530190885018128112576913736,
  139251876206,
  4074071952787543271915903160932493010751833204973620965569896836285167165550776458192642376,
  139251884398,
  995375092225257311724143408245389148687320845907804284817334959844537107235064530075976,
  3162908852594,
  995132140042629716578494361770347559927572903304458469761240906888753720096369127743816,
  139285430636,
  4074072438336195228969159106684233027982663447933582264307161211661865034252744714743472456,
  139285438828,
  391110915226956183016147361744505102560282006362307990562845859252079050793189839935792496646,
  13199555349488,
  391110915226896897466457855852448234215957558153487116330697051283290848510177788413450403846,
  13199555185644,
  95493832066247938210117069491816895374914150580446970306654090813125579043547234340454406,
  13199554661356,
  95493832125533487899622961548685239699362359401321202455462059601327862055598756682547206,
  13199554825202,
  391110907700952077681821894585353132293204137596428590432418261433740233828309331959254630406,
  13199555357552,
  391110907458118466153605760720420393940264274266127735550900821277263682610946296308637122566,
  13199555185518,
  95486063287816625358021937463976619681630263221066190510424084785959679812055129527173126,
  13199554661230,
  95486306121428153574155802396714972621493593521921072027864241262510897175090780144680966,
  13199554833266,
  912751268609867880046862240042115387169112640947025874049415519794285691457792942028892413956,
  90296345544633284,
  1002417266959575579606226457657624404723899570699368290581872779829840635268932337140038,
  1812925426,
  995134037180219780767040181557365942270255171279887231616242129361810105745084074688838,
  1846479730,
  651851520203402529279011469606307999885692540589530882698408593804319074049041832947585130500,
  13248912174064,
  159151212018113398598571634713971018054800584686433764424598483522869163818097649068548100,
  13246764690418,
  391142736386185166436855650503414741808588224107811645257572596127041643069746399116996641220,
  236444068913015916,
  391142736386185166436855650503414741808588224107811645257572596127041661959212330595577496000,
  236444069114342508,
  391142736143410840458329022530538871799972808986331664608203963939353294135395414988721226180,
  236444068913007726,
  130465788789631400084690491314777130261533128105873865683978997998722576206295815815127367680,
  200468048652987628,
  130465788789631400084690491314777130261533128105873865683978997998722557316829884336546512900,
  200468048451661036,
  130465788546857074106163863341901260252917712984393885034610365811034208382478900208271097860,
  200468048451652846,
  130465788789631400084690491314777130261533128105873865683978997998722557309912355308905447430,
  200467361290448108,
  391142736143410840458329022530538871799972808986331664608203963939352085726246764009997991940,
  164430466077609070,
  391142736386185166436855650503414741808588224107811645257572596127040434653680219110632341510,
  164429778916404332,
  391142736386185166436855650503414741808588224107811645257572596127040434660597748138273406980,
  164430466077617260,
  391142736386185166436855650503414741808588224107811645257572596127041039264001849428312080390,
  200467361290972268,
  391142736143410840458329022530538871799972808986331664608203963939352690336568394327677730820,
  200468048452177006,
  391142736386185166436855650503414741808588224107811645257572596127041039270919378455953145860,
  200468048452185196,
  391142736386185166436855650503414741808588224107811645257572596127041058160385309934534000640,
  200468048653511788,
  7770675568902916283677847627294075626569627356208558085007249639179285038614470459846,
  4401404881900,
  7770675568902916283677847627294075626569627356208558085007249639324679811934452457476,
  40143986371564,
  7770734854452605789569904495638400074778448230440706892976037841464603496096013222344,
  4951194389482,
  7770734854452605789569904495638400074778448230440706892976037841607692426406781534214,
  2291394077969386,
  130370302728359292148775669707246677348882736942562523386528044852733359189603305625515983304,
  4951764823280,
  130370302485466395070870029950257070651618425403440794272861796727468605693839904470916661704,
  4951194389742,
  130370302971133618127302297680122547357498152064042504035896677040421708130872381731385901504,
  2256889051008240,
  130370302971133618127302297680122547357498152064042504035896677040421708123954289753791398344,
  4951798369520,
  130370302728240721049396657923132940660233840524920774922230428915156954628190888599192076744,
  4951194397932,
  130370302728359292148775669707246677348882736942562523386528044852733359337303921954711666694,
  2291394782620912,
  130370302485466395070870029950257070651618425403440794272861796727468605836928834781684973574,
  2291394077969646,
  130370302971133618127302297680122547357498152064042504035896677040421708271652654283173421064,
  39732441435376,
  130370302971133618127302297680122547357498152064042504035896677040421708271654906082987081734,
  2291394816167152,
  130370302728240721049396657923132940660233840524920774922230428915156954771279818909960388614,
  2291394077977836,
  31828687189511894787450355938264878090877402471904486064997663309364716795157411213345224,
  4951194389614,
  31828930082408972693090112927871575355188941593633599731245788574118212558558565812666824,
  4951764823154,
  31829172856734951219718085803741583970604063073614249099877976262467153827634671682585024,
  2256889051008114,
  31828929963837873314078328814134886706292523951885135433629850997713651146141539488760264,
  4951194397804,
  31829172856734951219718085803741583970604063073614249099877976262467146909542694088081864,
  4951798369394,
  31828687189511894787450355938264878090877402471904486064997663309364859884087721981657094,
  2291394077969518,
  31828930082408972693090112927871575355188941593633599731245788574118360259174895008350214,
  2291394782620786,
  31829172856734951219718085803741583970604063073614249099877976262467294607907223470104584,
  39732441435250,
  31828929963837873314078328814134886706292523951885135433629850997713794235071850257072134,
  2291394077977708,
  31829172856734951219718085803741583970604063073614249099877976262467294610159023283765254,
  2291394816167026,
  651947006259101795544112737360492828431844800123680047173871597884215141505618262116745871942,
  18027647556955116,
  391270058662548029191947578171855216884789704121742267600277999755896660217917960610050211842,
  198172180294142956,
  651947006259101795544112737360492828431844800123680047173871597884215142019820690221446742022,
  54091628847336428,
  651947006259101795544112737360492828431844800123680047173871597884215142019983945707936555012,
  162178569626463212,
  391270058662548029191947578171855216884789704121742267600277999755896660065731196102040109062,
  54091626700377068,
  651947006259101795544112737360492828431844800123680047173871597884215142172007454729456844802,
  198172182441102316,
  651946998490323364231260642228464988156151516236320666394075367878187975606386770011932590662,
  18027647556954990,
  391270050893769597879095483039827376609096420234382886820481769749869494318686468505236930562,
  198172180294142830,
  651946998490323364231260642228464988156151516236320666394075367878187976120589198116633460742,
  54091628847336302,
  651946998490323364231260642228464988156151516236320666394075367878187976120752453603123273732,
  162178569626463086,
  391270050893769597879095483039827376609096420234382886820481769749869494166499703997226827782,
  54091626700376942,
  651946998490323364231260642228464988156151516236320666394075367878187976272775962624643563522,
  198172182441102190,
  7770675568902916283677847627294075626569627356208558085007251160078746833778747900096,
  48942394166252,
  7770675568902916283677847627294075626569627356208558085007250546023656208924760080386,
  40144156756972,
  7770734854452605789569904495638400074778448230440706892976039371808798256999581089984,
  2300879680490474,
  7770734854452605789569904495638400074778448230440706892976038748308974666406302842884,
  2292081241803754,
  130370302971133618127302297680122547357498152064042504035896677040423219583294805197205799104,
  2300880250916080,
  130370302485466395070870029950257070651618425403440794272861796727470136038034665374484529344,
  2300879680490734,
  130370302728359292148775669707246677348882736942562523386528044852734870648943821068930384064,
  2300880217369840,
  130370302728240721049396657923132940660233840524920774922230428915158484972385649502759944384,
  2300879680498924,
  130370302728359292148775669707246677348882736942562523386528044852734266038586161954232991744,
  2292081980009712,
  130370302485466395070870029950257070651618425403440794272861796727469512538211074781206282244,
  2292081241804014,
  130370302971133618127302297680122547357498152064042504035896677040422614966019617054867324934,
  2291394818788592,
  130370302971133618127302297680122547357498152064042504035896677040422614972937146082508406784,
  2292082013555952,
  130370302728240721049396657923132940660233840524920774922230428915157861472562058909481697284,
  2292081241812204,
  31828687189511894787450355938264878090877402471904486064997663310895060989918314781212864,
  2300879680490606,
  31829172856734951219718085803741583970604063073614249099877976263978606250058137502482624,
  2300880250915954,
  31828929963837873314078328814134886706292523951885135433629850999243995340902443056627904,
  2300879680498796,
  31828930082408972693090112927871575355188941593633599731245788575629671899074009227067584,
  2300880217369714,
  31828687189511894787450355938264878090877402471904486064997663310271561166327721502965764,
  2292081241803886,
  31828930082408972693090112927871575355188941593633599731245788575025061541414894529675264,
  2292081980009586,
  31829172856734951219718085803741583970604063073614249099877976263373988974869995164008454,
  2291394818788466,
  31828929963837873314078328814134886706292523951885135433629850998620495517311849778380804,
  2292081241812076,
  31829172856734951219718085803741583970604063073614249099877976263373995892399022805090304,
  2292082013555826,
  651947006259101795544112737360492828431844800123680047173871597884217871035751766730844668352,
  234192183367093228,
  391270058662548029191947578171855216884789704121742267600277999755898785282835251950394540032,
  198216160759303148,
  391270058662548029191947578171855216884789704121742267600277999755898775838102286211104112642,
  198216160759253996,
  651947006259101795544112737360492828431844800123680047173871597884217257792191780330510745602,
  198216162906213356,
  651947006259101795544112737360492828431844800123680047173871597884217267236924746069801172992,
  198216162906262508,
  651946998490323364231260642228464988156151516236320666394075367878190705136520274626031387072,
  234192183367093102,
  391270050893769597879095483039827376609096420234382886820481769749871619383603759845581258752,
  198216160759303022,
  391270050893769597879095483039827376609096420234382886820481769749871609938870794106290831362,
  198216160759253870,
  651946998490323364231260642228464988156151516236320666394075367878190091892960288225697464322,
  198216162906213230,
  651946998490323364231260642228464988156151516236320666394075367878190101337693253964987891712,
  198216162906262382,
  995375092225257311724143408245389148687320845907804284817334959844758560487740331262016,
  2254971314569330,
  995132317899278785096170532375380533272199365927154916185147271495824209503612055846976,
  2254833909170290,
  391110915226956183016147361744505102560282006362307990562845859252079051314312048862577033536,
  48929522502640,
  391110915226956183016147361744505102560282006362307990562845859252079051162252511044039606276,
  40143999126512,
  95493832125533487899622961548685239699362359401321202455462059601328383177807683467084096,
  48929521978354,
  95493832125533487899622961548685239699362359401321202455462059601328231118269864929656836,
  40143998602226,
  391110907700952077681821894585353132293204137596428590432418261433740234349431540886039167296,
  48929522510704,
  391110907700952077681821894585353132293204137596428590432418261433740234197372003067501740036,
  40143999134576,
  95486306121428153574155802396714972621493593521921072027864241262511418297299706929217856,
  48929521986418,
  95486306121428153574155802396714972621493593521921072027864241262511266237761888391790596,
  40143998610290,
  652074321013314113694697080853477775622057544945088094475821921665967210170093203462486491136,
  198373942790237120,
  912751268609867880046862240042115387169112640947025874049415519794285692124182697581893124096,
  198382736735775680,
  391142736386185166436855650503414741808588224107811645257573894676622532288898859009509949760,
  164430865811565676,
  130465788789631400084690491314777130261533128105873865684167868430774946011255448770592112960,
  346826787990727916,
  391142736386185166436855650503414741808588224107811645257717980755990548881391257126290063680,
  200494434852203628,
  391142736386185166436855650503414741808588224107811645257718026708324806488317868769070285120,
  310832488183164012,
  130465788789631400084690491314777130261533128105873865684124382627672066927301763006883430720,
  200494434851679468,
  391142736386185166436855650503414741808588224107811645257761466559093427965344942889998745920,
  346826787991252076,
  391142736143410840458329022530538871799972808986331664608205262488934183354547874881234534720,
  164430865811557486,
  130465788546857074106163863341901260252917712984393885034799236243086597076904464642316697920,
  346826787990719726,
  391142736143410840458329022530538871799972808986331664608349348568302199947040272998014648640,
  200494434852195438,
  391142736143410840458329022530538871799972808986331664608349394520636457553966884640794870080,
  310832488183155822,
  130465788546857074106163863341901260252917712984393885034755750439983717992950778878608015680,
  200494434851671278,
  391142736143410840458329022530538871799972808986331664608392834371405079030993958761723330880,
  346826787991243886,
  130465788546857074106163863341901260252917712984393885034715510297786397953028990688412303360,
  164430885138386158,
  130465788546857074106163863341901260252917712984393885034714212223571764246121858064329998340,
  164430884836396270,
  130465788789631400084690491314777130261533128105873865684084791681038388769359964516003086340,
  166682822089043180,
  130465788789631400084690491314777130261533128105873865684084142485474746887379974816687718400,
  164430885138394348,
  130465788789631400084690491314777130261533128105873865684082844411260113180472842192605413380,
  164430884836404460,
  130465788546857074106163863341901260252917712984393885034755796392317975968812271995579269120,
  310832498920049902,
  130465788546857074106163863341901260252917712984393885034755796392317975964200585977151881220,
  310832498752277742,
  130465788789631400084690491314777130261533128105873865684124427946181024791354961334670196740,
  308580836377554156,
  130465788789631400084690491314777130261533128105873865684124428580006324903163256123854684160,
  310832498920058092,
  130465788789631400084690491314777130261533128105873865684124428580006324898551570105427296260,
  310832498752285932,
  391142736143410840458329022530538871799972808986331664608307810351890246200211352183736631300,
  164430884836920430,
  391142736143410840458329022530538871799972808986331664608309108426104879907118484807818936320,
  164430885138910318,
  391142736386185166436855650503414741808588224107811645257678389809356870723449458635409719300,
  166682822089567340,
  391142736386185166436855650503414741808588224107811645257676442539578595134562336312012046340,
  164430884836928620,
  391142736386185166436855650503414741808588224107811645257677740613793228841469468936094351360,
  164430885138918508,
  391142736143410840458329022530538871799972808986331664608349394520636457918290080096558514180,
  310832498752801902,
  391142736143410840458329022530538871799972808986331664608349394520636457922901766114985902080,
  310832498920574062,
  391142736386185166436855650503414741808588224107811645257718026074499506745444455454076829700,
  308580836378078316,
  391142736386185166436855650503414741808588224107811645257718026708324806852641064224833929220,
  310832498752810092,
  391142736386185166436855650503414741808588224107811645257718026708324806857252750243261317120,
  310832498920582252,
  391142736386185166436855650503414741808588224107811646028526781427437379938542080810538762560,
  382846789118520428,
  130465788546857074106163863341901260252917712984393885635610290337868571112915295925258158400,
  346870768657157358,
  130465788789631400084690491314777130261533128105873866279662010542417256555652177712319037760,
  346870768455838956,
  391142736386185166436855650503414741808588224107811645853255608670735738509741671831725670720,
  346870768456363116,
  391142736143410840458329022530538871799972808986331665209203888466187053067004790044664791360,
  346870768657681518,
  391142736386185166436855650503414741808588224107811646028526781427437379938506052013519798720,
  382811613336366188,
  130465788789631400084690491314777130261533128105873866284978922525556920047266280053533573440,
  346870768657165548,
  130465788546857074106163863341901260252917712984393885630293378354728907621301193584043622720,
  346870768455830766,
  391142736143410840458329022530538871799972808986331665203886976483047389575390687703450255680,
  346870768456354926,
  391142736386185166436855650503414741808588224107811645858572520653875402001355774172940206400,
  346870768657689708,
  130465788546857074106163863341901260252917712984393885635610290337868571113005367917805568000,
  346870777247091950,
  130465788789631400084690491314777130261533128105873866279662010542417256555741123804959604740,
  346870776911555820,
  130465788789631400084690491314777130261533128105873866284978922525556920047356352046080983040,
  346870777247100140,
  130465788546857074106163863341901260252917712984393885630293378354728907621390139676684189700,
  346870776911547630,
  130465788546857074106163863341901260252917712984393885460110702154813005484844099778841149440,
  310833196818681070,
  391142736143410840458329022530538871799972808986331665033704300283131487438932467998340939780,
  310833196684987502,
  130465788789631400084690491314777130261533128105873866109477387231179403858834947920946528260,
  310832509489704172,
  130465788789631400084690491314777130261533128105873866109479334342501354419195083907116564480,
  310833196818689260,
  391142736386185166436855650503414741808588224107811645683072932470819836373283452126616354820,
  310833196684995692,
  391142736386185166436855650503414741808588224107811645853255608670735738509830617924366237700,
  346870776912079980,
  391142736143410840458329022530538871799972808986331665209203888466187053067094862037212200960,
  346870777247616110,
  391142736143410840458329022530538871799972808986331665203886976483047389575479633796090822660,
  346870776912071790,
  391142736386185166436855650503414741808588224107811645858572520653875402001445846165487616000,
  346870777247624300,
  130465788546857074106163863341901260252917712984393885460110702154813005484842973878934306820,
  310833196684463342,
  391142736143410840458329022530538871799972808986331665033704300283131487438933593898247782400,
  310833196819205230,
  130465788789631400084690491314777130261533128105873866109477387231179403858834384970993106950,
  310831959868108012,
  130465788789631400084690491314777130261533128105873866109479334342501354419193958007209721860,
  310833196684471532,
  391142736386185166436855650503414741808588224107811645683072932470819836373284578026523197440,
  310833196819213420,
  130370302971133618127302297680122547357498152064042504036044009097607933750755997593655836864,
  4588409897536752,
  130370302971133618127302297680122547357498152064042504036000559105634510959701913451901223104,
  4578937347165424,
  130370302971133618127302297680122547357498152064042504036044009097607933750719968796636873024,
  4588401309699312,
  130370302728359292148775669707246677348882736942562523386631926917946162025350929323625808064,
  4578937313619184,
  130370302971133618127302297680122547357498152064042504036000559105634510959754267797569404934,
  4578387593448688,
  130370302728359292148775669707246677348882736942562523386631926917946162025403283669293989894,
  4578387559902448,
  31829172856734951219718085803741583970604063073614249247210033448692773711250533952520384,
  4588409897536626,
  31829172856734951219718085803741583970604063073614249203760041475269982657166392197906624,
  4578937347165298,
  31829172856734951219718085803741583970604063073614249247210033448692773675221736933556544,
  4588401309699186,
  31828930082408972693090112927871575355188941593633599835127853786921048306182263922491584,
  4578937313619058,
  31829172856734951219718085803741583970604063073614249203760041475269982709520737866088454,
  4578387593448562,
  31828930082408972693090112927871575355188941593633599835127853786921048358536609590673414,
  4578387559902322,
  391270058662548029191947578171855216884789704121742267600466220992387522136342618091368219072,
  342279122167041004,
  651947006259101795544112737360492828431844800123680047174059819120706004090432112210774852032,
  342279124314000364,
  391270058662548029191947578171855216884789704121742267600466220992387522136468155930981171202,
  342314306539097068,
  391270058662548029191947578171855216884789704121742267600423430178726218024666258327920967682,
  306329489817471980,
  651947006259101795544112737360492828431844800123680047174059819120706004090557650050387804162,
  342314308686056428,
  391270058662548029191947578171855216884789704121742267600423430178726218024665695377967546372,
  306329489683287020,
  391270050893769597879095483039827376609096420234382886820669990986360356237111125986554937792,
  342279122167040878,
  651946998490323364231260642228464988156151516236320666394263589114678838191200620105961570752,
  342279124314000238,
  391270050893769597879095483039827376609096420234382886820669990986360356237236663826167889922,
  342314306539096942,
  391270050893769597879095483039827376609096420234382886820627200172699052125434766223107686402,
  306329489817471854,
  651946998490323364231260642228464988156151516236320666394263589114678838191326157945574522882,
  342314308686056302,
  391270050893769597879095483039827376609096420234382886820627200172699052125434203273154265092,
  306329489683286894]
def ccsdt_t3_proj_cert_1 : List Nat := [130465788789631400084690491314777130261533181268174329557160892959801166883802469294827110720,
  493185529677278444,
  391142736386185166436855650503414741808588277270112109130754491088119648837891963414233743680,
  493185529677802604,
  130465788789631400084690491314777130261533181268174329557160928137105323217043385938681528640,
  493220713915149548,
  130465788789631400084690491314777130261533169040943346145202592091921591638381336201265152320,
  457235210166529260,
  391142736386185166436855650503414741808588277270112109130754526265423805171132880058088161600,
  493220713915673708,
  130465788789631400084690491314777130261533169040943346145202591933465266609853223964130672960,
  457234660544933100,
  130465788789631400084690491314777130261533181268174329557160892959801166883766440497808146880,
  493150353895124204,
  391142736386185166436855650503414741808588277270112109130754491088119648837855934617214779840,
  493150353895648364,
  130465788789631400084690491314777130261533181268174329557160917995900521391208173965055885760,
  493150362350841068,
  130465788546857074106163863341901260252917753919463365495833959904233242704030352072989737280,
  457235210166521070,
  391142736386185166436855650503414741808588277270112109130754516124219003345297668084462518720,
  493150362351365228,
  130465788546857074106163863341901260252917753919463365495833959745776917675502239835855257920,
  457234660544924910,
  130465788789631400084690491314777130261533181268174329557160928137105323217132332031322095620,
  493220722370866412,
  130465788789631400084690491314777130261533169040943346145202592091921591638470282293905719300,
  457235218622246124,
  130465788789631400084690491314777130261533181268174329557160917995900521391333148854715416580,
  493185546588712172,
  130465788546857074106163863341901260252917753919463365495833959904233242704119298165630304260,
  457235218622237934,
  130465788789631400084690491314777130261533169040943346145202616969564621117383903524018978820,
  457234677456366828,
  130465788546857074106163863341901260252917753919463365495833984781876272183032919395743563780,
  457234677456358638,
  391142736386185166436855650503414741808588277270112109130754526265423805171221826150728728580,
  493220722371390572,
  130465788789631400084690491314777130261533169040943346145202591933465266609941607106817818630,
  457234119379053804,
  391142736386185166436855650503414741808588277270112109130754516124219003345422642974122049540,
  493185546589236332,
  130465788546857074106163863341901260252917753919463365495833959745776917675590622978542403590,
  457234119379045614,
  130465788789631400084690491314777130261533169040943346145202616969564621117383340574065557510,
  457234127834770668,
  130465788546857074106163863341901260252917753919463365495833984781876272183032356445790142470,
  457234127834762478,
  142909128768,
  280280981568,
  4405664694466,
  22268365504966,
  4405664694466,
  22268365504966,
  4401336688966,
  13195281703366,
  13201724153920,
  21993522733120,
  54610553328132420,
  91211225108873670,
  1130442909843654,
  584943541707204,
  54610553328132420,
  91211225108873670,
  54610553328132420,
  91211225108873670,
  1130442909843654,
  584943541707204,
  90085187863724482,
  54047878151930182,
  54610553328132420,
  91211225108873670,
  54047740813664580,
  91211225108865480,
  54610553294569800,
  90085462674538950,
  1689130141220936,
  555225989186,
  18590550188130630,
  54628136857141830,
  13332654088516,
  13332654088516,
  1130442909843654,
  584943541707204,
  90085187863724482,
  54047878151930182,
  90085187863724482,
  54047878151930182,
  54610553328132420,
  91211225108873670,
  18590552402190660,
  91211225108349510,
  54047736485675460,
  54610823777378760,
  13332654088516,
  13332654088516,
  54610549033689540,
  55173636291854790,
  126122783087534656,
  18053988512702656,
  1130442909843654,
  584943541707204,
  90085187863724482,
  54047878151930182,
  54610549000126920,
  54047873857520070,
  1130442909843654,
  584943541707204,
  90085187863724482,
  54047878151930182,
  567626100924744,
  13332754235844,
  90085187830161862,
  54047603307585862,
  54610553328132420,
  91211225108873670,
  275986514118,
  3322167618,
  1130438615400774,
  576145302249924,
  54610553328132420,
  91211225108873670,
  54065186870157892,
  18027737606537542,
  54610553328132420,
  91211225108873670,
  21993454059970,
  4405597569220,
  54610553328132420,
  91211225108873670,
  54610553328132420,
  91211225108873670,
  54610553328132420,
  91211225108873670,
  54610553328132420,
  91211225108873670,
  1689130141220936,
  555225989186,
  13332654088516,
  13332654088516,
  126122783087534656,
  18053988512702656]

/-- Check ccsdt_t3_proj. C75 -/
theorem ccsdt_t3_proj : isZero kinds [] 41472
    (Wick.matX (Wick.braX 3) [(1/144, [], .all), (1/5184, [3], .all), (1/576, [2], .all), (1/144, [1], .all), (1/373248, [3, 3], .all), (1/20736, [2, 3], .all), (1/4608, [2, 2], .all), (1/5184, [1, 3], .all), (1/576, [1, 2], .all), (1/288, [1, 1], .all), (1/40310784, [3, 3, 3], .all), (1/1492992, [2, 3, 3], .all), (1/165888, [2, 2, 3], .all), (1/55296, [2, 2, 2], .all), (1/373248, [1, 3, 3], .all), (1/20736, [1, 2, 3], .all), (1/4608, [1, 2, 2], .all), (1/10368, [1, 1, 3], .all), (1/1152, [1, 1, 2], .all), (1/864, [1, 1, 1], .all), (1/5804752896, [3, 3, 3, 3], .all), (1/161243136, [2, 3, 3, 3], .all), (1/11943936, [2, 2, 3, 3], .all), (1/1990656, [2, 2, 2, 3], .all), (1/884736, [2, 2, 2, 2], .all), (1/40310784, [1, 3, 3, 3], .all), (1/1492992, [1, 2, 3, 3], .all), (1/165888, [1, 2, 2, 3], .all), (1/55296, [1, 2, 2, 2], .all), (1/746496, [1, 1, 3, 3], .all), (1/41472, [1, 1, 2, 3], .all), (1/9216, [1, 1, 2, 2], .all), (1/31104, [1, 1, 1, 3], .all), (1/3456, [1, 1, 1, 2], .all), (1/3456, [1, 1, 1, 1], .all), (1/1044855521280, [3, 3, 3, 3, 3], .all), (1/23219011584, [2, 3, 3, 3, 3], .all), (1/1289945088, [2, 2, 3, 3, 3], .all), (1/143327232, [2, 2, 2, 3, 3], .all), (1/31850496, [2, 2, 2, 2, 3], .all), (1/17694720, [2, 2, 2, 2, 2], .all), (1/5804752896, [1, 3, 3, 3, 3], .all), (1/161243136, [1, 2, 3, 3, 3], .all), (1/11943936, [1, 2, 2, 3, 3], .all), (1/1990656, [1, 2, 2, 2, 3], .all), (1/884736, [1, 2, 2, 2, 2], .all), (1/80621568, [1, 1, 3, 3, 3], .all), (1/2985984, [1, 1, 2, 3, 3], .all), (1/331776, [1, 1, 2, 2, 3], .all), (1/110592, [1, 1, 2, 2, 2], .all), (1/2239488, [1, 1, 1, 3, 3], .all), (1/124416, [1, 1, 1, 2, 3], .all), (1/27648, [1, 1, 1, 2, 2], .all), (1/124416, [1, 1, 1, 1, 3], .all), (1/13824, [1, 1, 1, 1, 2], .all), (1/17280, [1, 1, 1, 1, 1], .all)] ++ (Prog.scale (-1) (Prog.cap 0 79 (Prog.ideal (ccsdt_t3eqns_0 ++ ccsdt_t3eqns_1)))))
    (ccsdt_t3_proj_cert_0 ++ (ccsdt_t3_proj_cert_1)) = true := by decide +kernel

end Verif.Cert
