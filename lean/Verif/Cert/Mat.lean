import Verif.Ein.Ops2
import Verif.Wick.Matrix
import Verif.Gen.Ccd
import Verif.Gen.Ucc4
import Verif.Gen.Triples
import Verif.Gen.Qf

/-! Written by `/verif/tools/gen.py`. Checks of einsum programs. -/

set_option maxRecDepth 100000

namespace Verif.Cert

open Verif.Ein Verif.Ein.N


open Verif.Gen

def lccd_mat_cert_0 : List Nat := [912751261319345978079254176132844480558743057617658924014053174002686342616781080918762463296,
  227377414938688,
  912751261319345978079254176132844480558743057617658924014053174002686342616781080918762463296,
  227377414938688,
  912751261562120304057780804105720350567358472739138904663421806190374691551132065047037878336,
  227514820337728,
  912751261562120304057780804105720350567358472739138904663421806190374691551132065047037878336,
  227514820337728,
  912751261562120304057780804105720350567358472739138904663421806190374691551132065047037878336,
  227514820337728,
  912751261562120304057780804105720350567358472739138904663421806190374691551132065047037878336,
  227514820337728,
  652074313965566537705615644917082739020303376737201125089828208062056209597042570927631245376,
  218720874799168,
  912751261319345978079254176132844480558743057617658924014053174002686342616781080918762463296,
  227377414938688,
  912751261562120304057780804105720350567358472739138904663421806190374691551132065047037878336,
  227514820337728,
  652074313965566537705615644917082739020303376737201125089828208062056209597042570927631245376,
  218720874799168,
  652074313722792211727089016944206869011687961615721144440459575874367860662691586799355830336,
  218583469400128,
  912751261319345978079254176132844480558743057617658924014053174002686342616781080918762463296,
  227377414938688,
  912751261562120304057780804105720350567358472739138904663421806190374691551132065047037878336,
  227514820337728,
  652074313965566537705615644917082739020303376737201125089828208062056209597042570927631245376,
  218720874799168,
  652074313722792211727089016944206869011687961615721144440459575874367860662691586799355830336,
  218583469400128,
  912751261562120304057780804105720350567358472739138904663421806190374691551132065047037878336,
  227514820337728,
  652074313965566537705615644917082739020303376737201125089828208062056209597042570927631245376,
  218720874799168,
  912751261319345978079254176132844480558743057617658924014053174002686342616781080918762463296,
  227377414938688,
  912751261319345978079254176132844480558743057617658924014053174002686342616781080918762463296,
  227377414938688,
  912751261562120304057780804105720350567358472739138904663421806190374691551132065047037878336,
  227514820337728,
  912751261562120304057780804105720350567358472739138904663421806190374691551132065047037878336,
  227514820337728,
  912751261562120304057780804105720350567358472739138904663421806190374691551132065047037878336,
  227514820337728,
  912751261562120304057780804105720350567358472739138904663421806190374691551132065047037878336,
  227514820337728,
  652074313965566537705615644917082739020303376737201125089828208062056209597042570927631245376,
  218720874799168,
  912751261319345978079254176132844480558743057617658924014053174002686342616781080918762463296,
  227377414938688,
  912751261562120304057780804105720350567358472739138904663421806190374691551132065047037878336,
  227514820337728,
  652074313965566537705615644917082739020303376737201125089828208062056209597042570927631245376,
  218720874799168,
  652074313722792211727089016944206869011687961615721144440459575874367860662691586799355830336,
  218583469400128,
  912751261319345978079254176132844480558743057617658924014053174002686342616781080918762463296,
  227377414938688,
  912751261562120304057780804105720350567358472739138904663421806190374691551132065047037878336,
  227514820337728,
  652074313965566537705615644917082739020303376737201125089828208062056209597042570927631245376,
  218720874799168,
  652074313722792211727089016944206869011687961615721144440459575874367860662691586799355830336,
  218583469400128,
  912751261562120304057780804105720350567358472739138904663421806190374691551132065047037878336,
  227514820337728,
  652074313965566537705615644917082739020303376737201125089828208062056209597042570927631245376,
  218720874799168,
  31204079050816,
  31204079050816,
  31204079042626,
  31204079042626,
  31066673651776,
  31066673651776,
  31066673651776,
  31066673651776,
  31204079050816,
  31204079050816,
  31204079042626,
  31204079042626,
  31066673651776,
  31066673651776]

/-- Check lccd_mat. C77 -/
theorem lccd_mat : isZero kinds [aᵥ, bᵥ, iₒ, jₒ] 128
    (Wick.matP ⟨1, [], [(true, 0), (true, 2), (false, 3), (false, 1)]⟩ [1, 3, 0, 2] [(1/128, [2, 2], .all)] ++ (Prog.scale (-1) (doubles_resLCCDoffset)))
    (lccd_mat_cert_0) = true := by decide +kernel

def ucc4_t1_mat_cert_0 : List Nat := [64,
  64,
  59285549689505892056868344324448208820874232148807968788202283012051522375647296,
  180288,
  23312026706708748851033542881882226879708882068625674255021748916866851422462501978176,
  12320832,
  23312145292282139017482181046517248902212512298748719954164395826365073526496394477632,
  750690368,
  391110907699173511191136717823647081963470691331802363467954022370094165337947786282614652992,
  751755328,
  391110907941947837169663345796522951972086106453282344117322654557782514272298770410890068032,
  785301568,
  391110907941947837169663345796522951972086106453282344117322654557782514272298770410890068032,
  785301568,
  95486547117187641415607013566534651503462450375674756932257365304791341164529231780118592,
  784777280,
  95486547117187641415607013566534651503462450375674756932257365304791341164529231780118592,
  784777280,
  95486304342861662888979040690664642888047328895694107563625177616442406813545103504703552,
  751231040,
  651946998488485512190885959574702069482093621762873565197462320845753704830706203909165154368,
  54773858368,
  651946998731259838169412587547577939490709036884353545846830953033442053765057188037440569408,
  54773866560,
  34357312,
  34357312,
  5369503808,
  5369503808,
  64,
  64,
  8256,
  8256,
  786496,
  786496]

/-- Check ucc4_t1_mat. C77 -/
theorem ucc4_t1_mat : isZero kinds [aᵥ, iₒ] 16
    (Wick.matP ⟨1, [], [(true, 0), (false, 1)]⟩ [1, 0] [(1/4, [], .fock), (1/4, [1], .fock), (1/16, [2], .fluct)] ++ (Prog.scale (-1) (t1_residEqns)))
    (ucc4_t1_mat_cert_0) = true := by decide +kernel

def ucc4_t3_mat_cert_0 : List Nat := [177856649068517676170605032973344626462622696446423906364606849036154572563554368,
  3029093589056,
  177856649068517676170605032973344626462622696446423906364606849036154572563554368,
  3029093589056,
  177856649068517676170605032973344626462622696446423906364606849036154572563554368,
  3029093589056,
  54394728982320413985744933391058529385987391493459906595050747472689319985751274561600,
  206713622634560,
  54394728982320413985744933391058529385987391493459906595050747472689319985751274561600,
  206713622634560,
  54394728982320413985744933391058529385987391493459906595050747472689319985751274561600,
  206713622634560,
  177856649068517676170605032973344626462622696446423906364606849036154572563554368,
  3029093589056,
  177856649068517676170605032973344626462622696446423906364606849036154572563554368,
  3029093589056,
  177856649068517676170605032973344626462622696446423906364606849036154572563554368,
  3029093589056,
  177856649068517676170605032973344626462622696446423906364606849036154572563554368,
  3029093589056,
  177856649068517676170605032973344626462622696446423906364606849036154572563554368,
  3029093589056,
  177856649068517676170605032973344626462622696446423906364606849036154572563554368,
  3029093589056,
  177856649068517676170605032973344626462622696446423906364606849036154572563554368,
  3029093589056,
  177856649068517676170605032973344626462622696446423906364606849036154572563554368,
  3029093589056,
  177856649068517676170605032973344626462622696446423906364606849036154572563554368,
  3029093589056,
  177856649068517676170605032973344626462622696446423906364606849036154572563554368,
  3029093589056,
  177856649068517676170605032973344626462622696446423906364606849036154572563554368,
  3029093589056,
  177856649068517676170605032973344626462622696446423906364606849036154572563554368,
  3029093589056,
  177856649068517676170605032973344626462622696446423906364606849036154572563554368,
  3029093589056,
  177856649068517676170605032973344626462622696446423906364606849036154572563554368,
  3029093589056,
  177856649068517676170605032973344626462622696446423906364606849036154572563554368,
  3029093589056,
  177856649068517676170605032973344626462622696446423906364606849036154572563554368,
  3029093589056,
  177856649068517676170605032973344626462622696446423906364606849036154572563554368,
  3029093589056,
  177856649068517676170605032973344626462622696446423906364606849036154572563554368,
  3029093589056,
  728500834584648401594798215058819589990902564644552320469429653652089106957389799488,
  3166532542528,
  728500834584648401594798215058819589990902564644552320469429653652089106957389799488,
  3166532542528,
  728500834584648401594798215058819589990902564644552320469429653652089106957389799488,
  3166532542528,
  728500834584648401594798215058819589990902564644552320469429653652089106957389799488,
  3166532542528,
  728500834584648401594798215058819589990902564644552320469429653652089106957389799488,
  3166532542528,
  728500834584648401594798215058819589990902564644552320469429653652089106957389799488,
  3166532542528,
  728500834584648401594798215058819589990902564644552320469429653652089106957389799488,
  3166532542528,
  728500834584648401594798215058819589990902564644552320469429653652089106957389799488,
  3166532542528,
  728500834584648401594798215058819589990902564644552320469429653652089106957389799488,
  3166532542528,
  728500834584648401594798215058819589990902564644552320469429653652089106957389799488,
  3166532542528,
  728500834584648401594798215058819589990902564644552320469429653652089106957389799488,
  3166532542528,
  728500834584648401594798215058819589990902564644552320469429653652089106957389799488,
  3166532542528,
  728500834584648401594798215058819589990902564644552320469429653652089106957389799488,
  3166532542528,
  728500834584648401594798215058819589990902564644552320469429653652089106957389799488,
  3166532542528,
  728500834584648401594798215058819589990902564644552320469429653652089106957389799488,
  3166532542528,
  728500834584648401594798215058819589990902564644552320469429653652089106957389799488,
  3166532542528,
  728500834584648401594798215058819589990902564644552320469429653652089106957389799488,
  3166532542528,
  728500834584648401594798215058819589990902564644552320469429653652089106957389799488,
  3166532542528,
  912592117397849766648263668407401416151057840362339440284990921310762822293974844375598637120,
  224305808678976,
  912592117397849766648263668407401416151057840362339440284990921310762822293974844375598637120,
  224305808678976,
  912592117397849766648263668407401416151057840362339440284990921310762822293974844375598637120,
  224305808678976,
  912592117397849766648263668407401416151057840362339440284990921310762822293974844375598637120,
  224305808678976,
  912592117397849766648263668407401416151057840362339440284990921310762822293974844375598637120,
  224305808678976,
  912592117397849766648263668407401416151057840362339440284990921310762822293974844375598637120,
  224305808678976,
  912592117397849766648263668407401416151057840362339440284990921310762822293974844375598637120,
  224305808678976,
  912592117397849766648263668407401416151057840362339440284990921310762822293974844375598637120,
  224305808678976,
  912592117397849766648263668407401416151057840362339440284990921310762822293974844375598637120,
  224305808678976,
  912592117397849766648263668407401416151057840362339440284990921310762822293974844375598637120,
  224305808678976,
  912592117397849766648263668407401416151057840362339440284990921310762822293974844375598637120,
  224305808678976,
  912592117397849766648263668407401416151057840362339440284990921310762822293974844375598637120,
  224305808678976,
  912592117397849766648263668407401416151057840362339440284990921310762822293974844375598637120,
  224305808678976,
  912592117397849766648263668407401416151057840362339440284990921310762822293974844375598637120,
  224305808678976,
  912592117397849766648263668407401416151057840362339440284990921310762822293974844375598637120,
  224305808678976,
  912592117397849766648263668407401416151057840362339440284990921310762822293974844375598637120,
  224305808678976,
  912592117397849766648263668407401416151057840362339440284990921310762822293974844375598637120,
  224305808678976,
  912592117397849766648263668407401416151057840362339440284990921310762822293974844375598637120,
  224305808678976,
  222800809911584415685611247169775736365004355557211777413327861648135454661614957675421760,
  215509715656768,
  222800809911584415685611247169775736365004355557211777413327861648135454661614957675421760,
  215509715656768,
  222800809911584415685611247169775736365004355557211777413327861648135454661614957675421760,
  215509715656768,
  222800809911584415685611247169775736365004355557211777413327861648135454661614957675421760,
  215509715656768,
  222800809911584415685611247169775736365004355557211777413327861648135454661614957675421760,
  215509715656768,
  222800809911584415685611247169775736365004355557211777413327861648135454661614957675421760,
  215509715656768,
  222800809911584415685611247169775736365004355557211777413327861648135454661614957675421760,
  215509715656768,
  222800809911584415685611247169775736365004355557211777413327861648135454661614957675421760,
  215509715656768,
  222800809911584415685611247169775736365004355557211777413327861648135454661614957675421760,
  215509715656768,
  222800809911584415685611247169775736365004355557211777413327861648135454661614957675421760,
  215509715656768,
  222800809911584415685611247169775736365004355557211777413327861648135454661614957675421760,
  215509715656768,
  222800809911584415685611247169775736365004355557211777413327861648135454661614957675421760,
  215509715656768,
  222800809911584415685611247169775736365004355557211777413327861648135454661614957675421760,
  215509715656768,
  222800809911584415685611247169775736365004355557211777413327861648135454661614957675421760,
  215509715656768,
  222800809911584415685611247169775736365004355557211777413327861648135454661614957675421760,
  215509715656768,
  222800809911584415685611247169775736365004355557211777413327861648135454661614957675421760,
  215509715656768,
  222800809911584415685611247169775736365004355557211777413327861648135454661614957675421760,
  215509715656768,
  222800809911584415685611247169775736365004355557211777413327861648135454661614957675421760,
  215509715656768,
  417753473088,
  417753473088,
  417719926848,
  417719926848,
  417753473088,
  417753473088,
  30791762190400,
  30791762190400,
  30791761666240,
  30791761666240,
  30791762190400,
  30791762190400,
  417753473088,
  417753473088,
  417753464898,
  417753464898,
  417752948928,
  417752948928,
  417752940738,
  417752940738,
  417753473088,
  417753473088,
  417752948928,
  417752948928,
  417753473088,
  417753473088,
  417753464898,
  417753464898,
  417753473088,
  417753473088,
  30791762190400,
  30791762190400,
  30791728644160,
  30791728644160,
  30789615231040,
  30789615231040,
  30789581684800,
  30789581684800,
  30791762190400,
  30791762190400,
  30789615231040,
  30789615231040,
  30791762190400,
  30791762190400,
  30791728644160,
  30791728644160,
  30791762190400,
  30791762190400]

/-- Check ucc4_t3_mat. C77 -/
theorem ucc4_t3_mat : isZero kinds [aᵥ, bᵥ, cᵥ, iₒ, jₒ, kₒ] 144
    (Wick.matP ⟨1, [], [(true, 0), (true, 2), (true, 4), (false, 5), (false, 3), (false, 1)]⟩ [1, 3, 5, 0, 2, 4] [(1/144, [3], .fock), (1/16, [2], .fluct)] ++ (Prog.scale (-1) (t3_resid)))
    (ucc4_t3_mat_cert_0) = true := by decide +kernel

def ucc4_t1t3_mat_cert_0 : List Nat := [118571099379011784113736688648896417641748464297615937576404566024103044752089152,
  738992192,
  118571099379011784113736688648896417641748464297615937576404566024103044752089152,
  738992192,
  118571099379011784113736688648896417641748464297615937576404566024103044752089152,
  738992192,
  118571099379011784113736688648896417641748464297615937576404566024103044752089152,
  738992192,
  485667223056432267729865476705879726660601709763034880312953102434726071301302919232,
  772546624,
  485667223056432267729865476705879726660601709763034880312953102434726071301302919232,
  772546624,
  485667223056432267729865476705879726660601709763034880312953102434726071301302919232,
  772546624,
  485667223056432267729865476705879726660601709763034880312953102434726071301302919232,
  772546624,
  651851512427035547605902620291001011536469885973099600203564943793402015924267745978687955008,
  54761627712,
  651851512427035547605902620291001011536469885973099600203564943793402015924267745978687955008,
  54761627712,
  651851512427035547605902620291001011536469885973099600203564943793402015924267745978687955008,
  54761627712,
  651851512427035547605902620291001011536469885973099600203564943793402015924267745978687955008,
  54761627712,
  159143435651131725489722319406982668832145968255151269580948472605811039044010680171372608,
  52614144064,
  159143435651131725489722319406982668832145968255151269580948472605811039044010680171372608,
  52614144064,
  159143435651131725489722319406982668832145968255151269580948472605811039044010680171372608,
  52614144064,
  159143435651131725489722319406982668832145968255151269580948472605811039044010680171372608,
  52614144064,
  38853555730111672245394457597396097729646576367056733015352753811491517860649580109888,
  3074828279872,
  651851512912880627311403405697037093275322957260163932663046248012719725208029971847117021248,
  3079190356032,
  651851513155654953289930033669912963283938372381643913312414880200408074142380955975392436288,
  3216595755072,
  651851513155654953289930033669912963283938372381643913312414880200408074142380955975392436288,
  3216595755072,
  651851513155654953289930033669912963283938372381643913312414880200408074142380955975392436288,
  3216595755072,
  159144164270537409517135698318934416300632376799464378430884879611869257157220676875853888,
  3214448271424,
  159144164270537409517135698318934416300632376799464378430884879611869257157220676875853888,
  3214448271424,
  159144164270537409517135698318934416300632376799464378430884879611869257157220676875853888,
  3214448271424,
  159143921496211430990507725443064407685217255319483729062252691923520322806236548600438848,
  3077042872384,
  912751260833619469473132402510922135508538882748236340018869485720945037899042958095084691520,
  224353724407872,
  912751260833619469473132402510922135508538882748236340018869485720945037899042958095084691520,
  224353724407872,
  912751261319168121430185658456673875525769712991196301317606750096321735767744926351635521600,
  224353757962304,
  912751261319168121430185658456673875525769712991196301317606750096321735767744926351635521600,
  224353757962304,
  67903552,
  67903552,
  67379392,
  67379392,
  5369503808,
  5369503808,
  5369495618,
  5369495618,
  280348074048,
  280348074048,
  280348065858,
  280348065858,
  30791762190400,
  30791762190400,
  30791761666240,
  30791761666240]

/-- Check ucc4_t1t3_mat. C77 -/
theorem ucc4_t1t3_mat : isZero kinds [aᵥ, bᵥ, iₒ, jₒ] 144
    (Wick.matP ⟨1, [], [(true, 0), (true, 2), (false, 3), (false, 1)]⟩ [1, 3, 0, 2] [(1/4, [1], .fluct), (1/144, [3], .fluct)] ++ (Prog.scale (-1) (offset_t2resid_T1_T3)))
    (ucc4_t1t3_mat_cert_0) = true := by decide +kernel

def ucc4_sq_mat_cert_0 : List Nat := [912751261319345978079254176132844480558743057617658924014053174002686342616781080918762463296,
  227377414938688,
  912751261319345978079254176132844480558743057617658924014053174002686342616781080918762463296,
  227377414938688,
  912751261562120304057780804105720350567358472739138904663421806190374691551132065047037878336,
  227514820337728,
  912751261562120304057780804105720350567358472739138904663421806190374691551132065047037878336,
  227514820337728,
  912751261562120304057780804105720350567358472739138904663421806190374691551132065047037878336,
  227514820337728,
  912751261562120304057780804105720350567358472739138904663421806190374691551132065047037878336,
  227514820337728,
  652074313965566537705615644917082739020303376737201125089828208062056209597042570927631245376,
  218720874799168,
  912751261319345978079254176132844480558743057617658924014053174002686342616781080918762463296,
  227377414938688,
  912751261562120304057780804105720350567358472739138904663421806190374691551132065047037878336,
  227514820337728,
  652074313965566537705615644917082739020303376737201125089828208062056209597042570927631245376,
  218720874799168,
  652074313722792211727089016944206869011687961615721144440459575874367860662691586799355830336,
  218583469400128,
  912751261319345978079254176132844480558743057617658924014053174002686342616781080918762463296,
  227377414938688,
  912751261562120304057780804105720350567358472739138904663421806190374691551132065047037878336,
  227514820337728,
  652074313965566537705615644917082739020303376737201125089828208062056209597042570927631245376,
  218720874799168,
  652074313722792211727089016944206869011687961615721144440459575874367860662691586799355830336,
  218583469400128,
  912751261562120304057780804105720350567358472739138904663421806190374691551132065047037878336,
  227514820337728,
  652074313965566537705615644917082739020303376737201125089828208062056209597042570927631245376,
  218720874799168,
  912751261319345978079254176132844480558743057617658924014053174002686342616781080918762463296,
  227377414938688,
  912751261319345978079254176132844480558743057617658924014053174002686342616781080918762463296,
  227377414938688,
  912751261562120304057780804105720350567358472739138904663421806190374691551132065047037878336,
  227514820337728,
  912751261562120304057780804105720350567358472739138904663421806190374691551132065047037878336,
  227514820337728,
  912751261562120304057780804105720350567358472739138904663421806190374691551132065047037878336,
  227514820337728,
  912751261562120304057780804105720350567358472739138904663421806190374691551132065047037878336,
  227514820337728,
  652074313965566537705615644917082739020303376737201125089828208062056209597042570927631245376,
  218720874799168,
  912751261319345978079254176132844480558743057617658924014053174002686342616781080918762463296,
  227377414938688,
  912751261562120304057780804105720350567358472739138904663421806190374691551132065047037878336,
  227514820337728,
  652074313965566537705615644917082739020303376737201125089828208062056209597042570927631245376,
  218720874799168,
  652074313722792211727089016944206869011687961615721144440459575874367860662691586799355830336,
  218583469400128,
  912751261319345978079254176132844480558743057617658924014053174002686342616781080918762463296,
  227377414938688,
  912751261562120304057780804105720350567358472739138904663421806190374691551132065047037878336,
  227514820337728,
  652074313965566537705615644917082739020303376737201125089828208062056209597042570927631245376,
  218720874799168,
  652074313722792211727089016944206869011687961615721144440459575874367860662691586799355830336,
  218583469400128,
  912751261562120304057780804105720350567358472739138904663421806190374691551132065047037878336,
  227514820337728,
  652074313965566537705615644917082739020303376737201125089828208062056209597042570927631245376,
  218720874799168,
  31204079050816,
  31204079050816,
  31204079042626,
  31204079042626,
  31066673651776,
  31066673651776,
  31066673651776,
  31066673651776,
  31204079050816,
  31204079050816,
  31204079042626,
  31204079042626,
  31066673651776,
  31066673651776]

/-- Check ucc4_sq_mat. C77 -/
theorem ucc4_sq_mat : isZero kinds [aᵥ, bᵥ, iₒ, jₒ] 256
    (Wick.matP ⟨1, [], [(true, 0), (true, 2), (false, 3), (false, 1)]⟩ [1, 3, 0, 2] [(1/256, [2, 2], .fluct)] ++ (Prog.scale (-1) (offset_t2resid_t2squared)))
    (ucc4_sq_mat_cert_0) = true := by decide +kernel

def T3_mat_cert_0 : List Nat := [177856649068517676170605032973344626462622696446423906364606849036154572563554368,
  3029093589056,
  177856649068517676170605032973344626462622696446423906364606849036154572563554368,
  3029093589056,
  177856649068517676170605032973344626462622696446423906364606849036154572563554368,
  3029093589056,
  177856649068517676170605032973344626462622696446423906364606849036154572563554368,
  3029093589056,
  177856649068517676170605032973344626462622696446423906364606849036154572563554368,
  3029093589056,
  177856649068517676170605032973344626462622696446423906364606849036154572563554368,
  3029093589056,
  177856649068517676170605032973344626462622696446423906364606849036154572563554368,
  3029093589056,
  177856649068517676170605032973344626462622696446423906364606849036154572563554368,
  3029093589056,
  177856649068517676170605032973344626462622696446423906364606849036154572563554368,
  3029093589056,
  177856649068517676170605032973344626462622696446423906364606849036154572563554368,
  3029093589056,
  177856649068517676170605032973344626462622696446423906364606849036154572563554368,
  3029093589056,
  177856649068517676170605032973344626462622696446423906364606849036154572563554368,
  3029093589056,
  177856649068517676170605032973344626462622696446423906364606849036154572563554368,
  3029093589056,
  177856649068517676170605032973344626462622696446423906364606849036154572563554368,
  3029093589056,
  177856649068517676170605032973344626462622696446423906364606849036154572563554368,
  3029093589056,
  177856649068517676170605032973344626462622696446423906364606849036154572563554368,
  3029093589056,
  177856649068517676170605032973344626462622696446423906364606849036154572563554368,
  3029093589056,
  177856649068517676170605032973344626462622696446423906364606849036154572563554368,
  3029093589056,
  728500834584648401594798215058819589990902564644552320469429653652089106957389799488,
  3166532542528,
  728500834584648401594798215058819589990902564644552320469429653652089106957389799488,
  3166532542528,
  728500834584648401594798215058819589990902564644552320469429653652089106957389799488,
  3166532542528,
  728500834584648401594798215058819589990902564644552320469429653652089106957389799488,
  3166532542528,
  728500834584648401594798215058819589990902564644552320469429653652089106957389799488,
  3166532542528,
  728500834584648401594798215058819589990902564644552320469429653652089106957389799488,
  3166532542528,
  728500834584648401594798215058819589990902564644552320469429653652089106957389799488,
  3166532542528,
  728500834584648401594798215058819589990902564644552320469429653652089106957389799488,
  3166532542528,
  728500834584648401594798215058819589990902564644552320469429653652089106957389799488,
  3166532542528,
  728500834584648401594798215058819589990902564644552320469429653652089106957389799488,
  3166532542528,
  728500834584648401594798215058819589990902564644552320469429653652089106957389799488,
  3166532542528,
  728500834584648401594798215058819589990902564644552320469429653652089106957389799488,
  3166532542528,
  728500834584648401594798215058819589990902564644552320469429653652089106957389799488,
  3166532542528,
  728500834584648401594798215058819589990902564644552320469429653652089106957389799488,
  3166532542528,
  728500834584648401594798215058819589990902564644552320469429653652089106957389799488,
  3166532542528,
  728500834584648401594798215058819589990902564644552320469429653652089106957389799488,
  3166532542528,
  728500834584648401594798215058819589990902564644552320469429653652089106957389799488,
  3166532542528,
  728500834584648401594798215058819589990902564644552320469429653652089106957389799488,
  3166532542528,
  912592117397849766648263668407401416151057840362339440284990921310762822293974844375598637120,
  224305808678976,
  912592117397849766648263668407401416151057840362339440284990921310762822293974844375598637120,
  224305808678976,
  912592117397849766648263668407401416151057840362339440284990921310762822293974844375598637120,
  224305808678976,
  912592117397849766648263668407401416151057840362339440284990921310762822293974844375598637120,
  224305808678976,
  912592117397849766648263668407401416151057840362339440284990921310762822293974844375598637120,
  224305808678976,
  912592117397849766648263668407401416151057840362339440284990921310762822293974844375598637120,
  224305808678976,
  912592117397849766648263668407401416151057840362339440284990921310762822293974844375598637120,
  224305808678976,
  912592117397849766648263668407401416151057840362339440284990921310762822293974844375598637120,
  224305808678976,
  912592117397849766648263668407401416151057840362339440284990921310762822293974844375598637120,
  224305808678976,
  912592117397849766648263668407401416151057840362339440284990921310762822293974844375598637120,
  224305808678976,
  912592117397849766648263668407401416151057840362339440284990921310762822293974844375598637120,
  224305808678976,
  912592117397849766648263668407401416151057840362339440284990921310762822293974844375598637120,
  224305808678976,
  912592117397849766648263668407401416151057840362339440284990921310762822293974844375598637120,
  224305808678976,
  912592117397849766648263668407401416151057840362339440284990921310762822293974844375598637120,
  224305808678976,
  912592117397849766648263668407401416151057840362339440284990921310762822293974844375598637120,
  224305808678976,
  912592117397849766648263668407401416151057840362339440284990921310762822293974844375598637120,
  224305808678976,
  912592117397849766648263668407401416151057840362339440284990921310762822293974844375598637120,
  224305808678976,
  912592117397849766648263668407401416151057840362339440284990921310762822293974844375598637120,
  224305808678976,
  222800809911584415685611247169775736365004355557211777413327861648135454661614957675421760,
  215509715656768,
  222800809911584415685611247169775736365004355557211777413327861648135454661614957675421760,
  215509715656768,
  222800809911584415685611247169775736365004355557211777413327861648135454661614957675421760,
  215509715656768,
  222800809911584415685611247169775736365004355557211777413327861648135454661614957675421760,
  215509715656768,
  222800809911584415685611247169775736365004355557211777413327861648135454661614957675421760,
  215509715656768,
  222800809911584415685611247169775736365004355557211777413327861648135454661614957675421760,
  215509715656768,
  222800809911584415685611247169775736365004355557211777413327861648135454661614957675421760,
  215509715656768,
  222800809911584415685611247169775736365004355557211777413327861648135454661614957675421760,
  215509715656768,
  222800809911584415685611247169775736365004355557211777413327861648135454661614957675421760,
  215509715656768,
  222800809911584415685611247169775736365004355557211777413327861648135454661614957675421760,
  215509715656768,
  222800809911584415685611247169775736365004355557211777413327861648135454661614957675421760,
  215509715656768,
  222800809911584415685611247169775736365004355557211777413327861648135454661614957675421760,
  215509715656768,
  222800809911584415685611247169775736365004355557211777413327861648135454661614957675421760,
  215509715656768,
  222800809911584415685611247169775736365004355557211777413327861648135454661614957675421760,
  215509715656768,
  222800809911584415685611247169775736365004355557211777413327861648135454661614957675421760,
  215509715656768,
  222800809911584415685611247169775736365004355557211777413327861648135454661614957675421760,
  215509715656768,
  222800809911584415685611247169775736365004355557211777413327861648135454661614957675421760,
  215509715656768,
  222800809911584415685611247169775736365004355557211777413327861648135454661614957675421760,
  215509715656768,
  417753473088,
  417753473088,
  417753464898,
  417753464898,
  417752948928,
  417752948928,
  417752940738,
  417752940738,
  417753473088,
  417753473088,
  417752948928,
  417752948928,
  417753473088,
  417753473088,
  417753464898,
  417753464898,
  417753473088,
  417753473088,
  30791762190400,
  30791762190400,
  30791728644160,
  30791728644160,
  30789615231040,
  30789615231040,
  30789581684800,
  30789581684800,
  30791762190400,
  30791762190400,
  30789615231040,
  30789615231040,
  30791762190400,
  30791762190400,
  30791728644160,
  30791728644160,
  30791762190400,
  30791762190400]

/-- Check T3_mat. C77 -/
theorem T3_mat : isZero kinds [aᵥ, bᵥ, cᵥ, iₒ, jₒ, kₒ] 16
    (Wick.matP ⟨1, [], [(true, 0), (true, 2), (true, 4), (false, 5), (false, 3), (false, 1)]⟩ [1, 3, 5, 0, 2, 4] [(1/16, [2], .fluct)] ++ (Prog.scale (-1) (build_T3)))
    (T3_mat_cert_0) = true := by decide +kernel

def T3_third_mat_cert_0 : List Nat := [54394966167941205473306734148274946557080640435364746076541111796617962194808200765504,
  12594498815926336,
  54394966167941205473306734148274946557080640435364746076541111796617962194808200765504,
  12594498815926336,
  54394966167941205473306734148274946557080640435364746076541111796617962194808200765504,
  12594498815926336,
  54394966167941205473306734148274946557080640435364746076541111796617962194808200765504,
  12594498815926336,
  54394966167941205473306734148274946557080640435364746076541111796617962194808200765504,
  12594498815926336,
  54394966167941205473306734148274946557080640435364746076541111796617962194808200765504,
  12594498815926336,
  54394966167941205473306734148274946557080640435364746076541111796617962194808200765504,
  12594498815926336,
  54394966167941205473306734148274946557080640435364746076541111796617962194808200765504,
  12594498815926336,
  54394966167941205473306734148274946557080640435364746076541111796617962194808200765504,
  12594498815926336,
  54394966167941205473306734148274946557080640435364746076541111796617962194808200765504,
  12594498815926336,
  54394966167941205473306734148274946557080640435364746076541111796617962194808200765504,
  12594498815926336,
  54394966167941205473306734148274946557080640435364746076541111796617962194808200765504,
  12594498815926336,
  54394966167941205473306734148274946557080640435364746076541111796617962194808200765504,
  12594498815926336,
  54394966167941205473306734148274946557080640435364746076541111796617962194808200765504,
  12594498815926336,
  54394966167941205473306734148274946557080640435364746076541111796617962194808200765504,
  12594498815926336,
  54394966167941205473306734148274946557080640435364746076541111796617962194808200765504,
  12594498815926336,
  54394966167941205473306734148274946557080640435364746076541111796617962194808200765504,
  12594498815926336,
  54394966167941205473306734148274946557080640435364746076541111796617962194808200765504,
  12594498815926336,
  912592118126587743431670093570427104587175223188525501858138473655345285078112157417054412864,
  12612365879877696,
  912592118126587743431670093570427104587175223188525501858138473655345285078112157417054412864,
  12612365879877696,
  912592118126587743431670093570427104587175223188525501858138473655345285078112157417054412864,
  12612365879877696,
  912592118126587743431670093570427104587175223188525501858138473655345285078112157417054412864,
  12612365879877696,
  912592118126587743431670093570427104587175223188525501858138473655345285078112157417054412864,
  12612365879877696,
  912592118126587743431670093570427104587175223188525501858138473655345285078112157417054412864,
  12612365879877696,
  912592118126587743431670093570427104587175223188525501858138473655345285078112157417054412864,
  12612365879877696,
  912592118126587743431670093570427104587175223188525501858138473655345285078112157417054412864,
  12612365879877696,
  912592118126587743431670093570427104587175223188525501858138473655345285078112157417054412864,
  12612365879877696,
  912592118126587743431670093570427104587175223188525501858138473655345285078112157417054412864,
  12612365879877696,
  912592118126587743431670093570427104587175223188525501858138473655345285078112157417054412864,
  12612365879877696,
  912592118126587743431670093570427104587175223188525501858138473655345285078112157417054412864,
  12612365879877696,
  912592118126587743431670093570427104587175223188525501858138473655345285078112157417054412864,
  12612365879877696,
  912592118126587743431670093570427104587175223188525501858138473655345285078112157417054412864,
  12612365879877696,
  912592118126587743431670093570427104587175223188525501858138473655345285078112157417054412864,
  12612365879877696,
  912592118126587743431670093570427104587175223188525501858138473655345285078112157417054412864,
  12612365879877696,
  912592118126587743431670093570427104587175223188525501858138473655345285078112157417054412864,
  12612365879877696,
  912592118126587743431670093570427104587175223188525501858138473655345285078112157417054412864,
  12612365879877696,
  912592118126587743431670093570427104587175223188525501858138473655345285078112157417054412864,
  12612365879877696,
  912592118126587743431670093570427104587175223188525501858138473655345285078112157417054412864,
  12612365879877696,
  912592118126587743431670093570427104587175223188525501858138473655345285078112157417054412864,
  12612365879877696,
  912592118126587743431670093570427104587175223188525501858138473655345285078112157417054412864,
  12612365879877696,
  912592118126587743431670093570427104587175223188525501858138473655345285078112157417054412864,
  12612365879877696,
  912592118126587743431670093570427104587175223188525501858138473655345285078112157417054412864,
  12612365879877696,
  912592118126587743431670093570427104587175223188525501858138473655345285078112157417054412864,
  12612365879877696,
  912592118126587743431670093570427104587175223188525501858138473655345285078112157417054412864,
  12612365879877696,
  912592118126587743431670093570427104587175223188525501858138473655345285078112157417054412864,
  12612365879877696,
  912592118369362069410196721543302974595790638310005482507507105843033634012463141545329827904,
  13175178394345536,
  912592118369362069410196721543302974595790638310005482507507105843033634012463141545329827904,
  13175178394345536,
  912592118369362069410196721543302974595790638310005482507507105843033634012463141545329827904,
  13175178394345536,
  912592118369362069410196721543302974595790638310005482507507105843033634012463141545329827904,
  13175178394345536,
  912592118369362069410196721543302974595790638310005482507507105843033634012463141545329827904,
  13175178394345536,
  912592118369362069410196721543302974595790638310005482507507105843033634012463141545329827904,
  13175178394345536,
  912592118369362069410196721543302974595790638310005482507507105843033634012463141545329827904,
  13175178394345536,
  912592118369362069410196721543302974595790638310005482507507105843033634012463141545329827904,
  13175178394345536,
  912592118369362069410196721543302974595790638310005482507507105843033634012463141545329827904,
  13175178394345536,
  912592118369362069410196721543302974595790638310005482507507105843033634012463141545329827904,
  13175178394345536,
  912592118369362069410196721543302974595790638310005482507507105843033634012463141545329827904,
  13175178394345536,
  912592118369362069410196721543302974595790638310005482507507105843033634012463141545329827904,
  13175178394345536,
  912592118369362069410196721543302974595790638310005482507507105843033634012463141545329827904,
  13175178394345536,
  912592118369362069410196721543302974595790638310005482507507105843033634012463141545329827904,
  13175178394345536,
  912592118369362069410196721543302974595790638310005482507507105843033634012463141545329827904,
  13175178394345536,
  912592118369362069410196721543302974595790638310005482507507105843033634012463141545329827904,
  13175178394345536,
  912592118369362069410196721543302974595790638310005482507507105843033634012463141545329827904,
  13175178394345536,
  912592118369362069410196721543302974595790638310005482507507105843033634012463141545329827904,
  13175178394345536,
  912592118369362069410196721543302974595790638310005482507507105843033634012463141545329827904,
  13175178394345536,
  912592118369362069410196721543302974595790638310005482507507105843033634012463141545329827904,
  13175178394345536,
  912592118369362069410196721543302974595790638310005482507507105843033634012463141545329827904,
  13175178394345536,
  912592118369362069410196721543302974595790638310005482507507105843033634012463141545329827904,
  13175178394345536,
  912592118369362069410196721543302974595790638310005482507507105843033634012463141545329827904,
  13175178394345536,
  912592118369362069410196721543302974595790638310005482507507105843033634012463141545329827904,
  13175178394345536,
  912592118369362069410196721543302974595790638310005482507507105843033634012463141545329827904,
  13175178394345536,
  912592118369362069410196721543302974595790638310005482507507105843033634012463141545329827904,
  13175178394345536,
  912592118369362069410196721543302974595790638310005482507507105843033634012463141545329827904,
  13175178394345536,
  912592118369362069410196721543302974595790638310005482507507105843033634012463141545329827904,
  13175178394345536,
  912592118369362069410196721543302974595790638310005482507507105843033634012463141545329827904,
  13175178394345536,
  912592118369362069410196721543302974595790638310005482507507105843033634012463141545329827904,
  13175178394345536,
  912592118369362069410196721543302974595790638310005482507507105843033634012463141545329827904,
  13175178394345536,
  912592118369362069410196721543302974595790638310005482507507105843033634012463141545329827904,
  13175178394345536,
  912592118369362069410196721543302974595790638310005482507507105843033634012463141545329827904,
  13175178394345536,
  912592118369362069410196721543302974595790638310005482507507105843033634012463141545329827904,
  13175178394345536,
  912592118369362069410196721543302974595790638310005482507507105843033634012463141545329827904,
  13175178394345536,
  912592118369362069410196721543302974595790638310005482507507105843033634012463141545329827904,
  13175178394345536,
  912592118126587743431670093570427104587175223188525501858138473655345285078112157417054412864,
  12612365879877696,
  912592118126587743431670093570427104587175223188525501858138473655345285078112157417054412864,
  12612365879877696,
  912592118126587743431670093570427104587175223188525501858138473655345285078112157417054412864,
  12612365879877696,
  912592118126587743431670093570427104587175223188525501858138473655345285078112157417054412864,
  12612365879877696,
  912592118126587743431670093570427104587175223188525501858138473655345285078112157417054412864,
  12612365879877696,
  912592118126587743431670093570427104587175223188525501858138473655345285078112157417054412864,
  12612365879877696,
  912592118126587743431670093570427104587175223188525501858138473655345285078112157417054412864,
  12612365879877696,
  912592118126587743431670093570427104587175223188525501858138473655345285078112157417054412864,
  12612365879877696,
  912592118126587743431670093570427104587175223188525501858138473655345285078112157417054412864,
  12612365879877696,
  912592118126587743431670093570427104587175223188525501858138473655345285078112157417054412864,
  12612365879877696,
  912592118126587743431670093570427104587175223188525501858138473655345285078112157417054412864,
  12612365879877696,
  912592118126587743431670093570427104587175223188525501858138473655345285078112157417054412864,
  12612365879877696,
  912592118126587743431670093570427104587175223188525501858138473655345285078112157417054412864,
  12612365879877696,
  912592118126587743431670093570427104587175223188525501858138473655345285078112157417054412864,
  12612365879877696,
  912592118126587743431670093570427104587175223188525501858138473655345285078112157417054412864,
  12612365879877696,
  912592118126587743431670093570427104587175223188525501858138473655345285078112157417054412864,
  12612365879877696,
  912592118126587743431670093570427104587175223188525501858138473655345285078112157417054412864,
  12612365879877696,
  912592118126587743431670093570427104587175223188525501858138473655345285078112157417054412864,
  12612365879877696,
  912592118126587743431670093570427104587175223188525501858138473655345285078112157417054412864,
  12612365879877696,
  912592118126587743431670093570427104587175223188525501858138473655345285078112157417054412864,
  12612365879877696,
  912592118126587743431670093570427104587175223188525501858138473655345285078112157417054412864,
  12612365879877696,
  912592118126587743431670093570427104587175223188525501858138473655345285078112157417054412864,
  12612365879877696,
  912592118126587743431670093570427104587175223188525501858138473655345285078112157417054412864,
  12612365879877696,
  912592118126587743431670093570427104587175223188525501858138473655345285078112157417054412864,
  12612365879877696,
  912592118126587743431670093570427104587175223188525501858138473655345285078112157417054412864,
  12612365879877696,
  912592118126587743431670093570427104587175223188525501858138473655345285078112157417054412864,
  12612365879877696,
  912592118126587743431670093570427104587175223188525501858138473655345285078112157417054412864,
  12612365879877696,
  912592118369362069410196721543302974595790638310005482507507105843033634012463141545329827904,
  13175178394345536,
  912592118369362069410196721543302974595790638310005482507507105843033634012463141545329827904,
  13175178394345536,
  912592118369362069410196721543302974595790638310005482507507105843033634012463141545329827904,
  13175178394345536,
  912592118369362069410196721543302974595790638310005482507507105843033634012463141545329827904,
  13175178394345536,
  912592118369362069410196721543302974595790638310005482507507105843033634012463141545329827904,
  13175178394345536,
  912592118369362069410196721543302974595790638310005482507507105843033634012463141545329827904,
  13175178394345536,
  912592118369362069410196721543302974595790638310005482507507105843033634012463141545329827904,
  13175178394345536,
  912592118369362069410196721543302974595790638310005482507507105843033634012463141545329827904,
  13175178394345536,
  912592118369362069410196721543302974595790638310005482507507105843033634012463141545329827904,
  13175178394345536,
  912592118369362069410196721543302974595790638310005482507507105843033634012463141545329827904,
  13175178394345536,
  912592118369362069410196721543302974595790638310005482507507105843033634012463141545329827904,
  13175178394345536,
  912592118369362069410196721543302974595790638310005482507507105843033634012463141545329827904,
  13175178394345536,
  912592118369362069410196721543302974595790638310005482507507105843033634012463141545329827904,
  13175178394345536,
  912592118369362069410196721543302974595790638310005482507507105843033634012463141545329827904,
  13175178394345536,
  912592118369362069410196721543302974595790638310005482507507105843033634012463141545329827904,
  13175178394345536,
  912592118369362069410196721543302974595790638310005482507507105843033634012463141545329827904,
  13175178394345536,
  912592118369362069410196721543302974595790638310005482507507105843033634012463141545329827904,
  13175178394345536,
  912592118369362069410196721543302974595790638310005482507507105843033634012463141545329827904,
  13175178394345536,
  912592118369362069410196721543302974595790638310005482507507105843033634012463141545329827904,
  13175178394345536,
  912592118369362069410196721543302974595790638310005482507507105843033634012463141545329827904,
  13175178394345536,
  912592118369362069410196721543302974595790638310005482507507105843033634012463141545329827904,
  13175178394345536,
  912592118369362069410196721543302974595790638310005482507507105843033634012463141545329827904,
  13175178394345536,
  912592118369362069410196721543302974595790638310005482507507105843033634012463141545329827904,
  13175178394345536,
  912592118369362069410196721543302974595790638310005482507507105843033634012463141545329827904,
  13175178394345536,
  912592118369362069410196721543302974595790638310005482507507105843033634012463141545329827904,
  13175178394345536,
  912592118369362069410196721543302974595790638310005482507507105843033634012463141545329827904,
  13175178394345536,
  912592118369362069410196721543302974595790638310005482507507105843033634012463141545329827904,
  13175178394345536,
  912592118369362069410196721543302974595790638310005482507507105843033634012463141545329827904,
  13175178394345536,
  912592118369362069410196721543302974595790638310005482507507105843033634012463141545329827904,
  13175178394345536,
  912592118369362069410196721543302974595790638310005482507507105843033634012463141545329827904,
  13175178394345536,
  912592118369362069410196721543302974595790638310005482507507105843033634012463141545329827904,
  13175178394345536,
  912592118369362069410196721543302974595790638310005482507507105843033634012463141545329827904,
  13175178394345536,
  912592118369362069410196721543302974595790638310005482507507105843033634012463141545329827904,
  13175178394345536,
  912592118369362069410196721543302974595790638310005482507507105843033634012463141545329827904,
  13175178394345536,
  912592118369362069410196721543302974595790638310005482507507105843033634012463141545329827904,
  13175178394345536,
  912592118369362069410196721543302974595790638310005482507507105843033634012463141545329827904,
  13175178394345536,
  222801538649561199092036410195464172482387181743273350560880206230598238798927999131197504,
  12603569786855488,
  222801538649561199092036410195464172482387181743273350560880206230598238798927999131197504,
  12603569786855488,
  222801538649561199092036410195464172482387181743273350560880206230598238798927999131197504,
  12603569786855488,
  222801538649561199092036410195464172482387181743273350560880206230598238798927999131197504,
  12603569786855488,
  222801538649561199092036410195464172482387181743273350560880206230598238798927999131197504,
  12603569786855488,
  222801538649561199092036410195464172482387181743273350560880206230598238798927999131197504,
  12603569786855488,
  222801538649561199092036410195464172482387181743273350560880206230598238798927999131197504,
  12603569786855488,
  222801538649561199092036410195464172482387181743273350560880206230598238798927999131197504,
  12603569786855488,
  222801538649561199092036410195464172482387181743273350560880206230598238798927999131197504,
  12603569786855488,
  222801538649561199092036410195464172482387181743273350560880206230598238798927999131197504,
  12603569786855488,
  222801538649561199092036410195464172482387181743273350560880206230598238798927999131197504,
  12603569786855488,
  222801538649561199092036410195464172482387181743273350560880206230598238798927999131197504,
  12603569786855488,
  222801538649561199092036410195464172482387181743273350560880206230598238798927999131197504,
  12603569786855488,
  222801538649561199092036410195464172482387181743273350560880206230598238798927999131197504,
  12603569786855488,
  222801538649561199092036410195464172482387181743273350560880206230598238798927999131197504,
  12603569786855488,
  222801538649561199092036410195464172482387181743273350560880206230598238798927999131197504,
  12603569786855488,
  222801538649561199092036410195464172482387181743273350560880206230598238798927999131197504,
  12603569786855488,
  222801538649561199092036410195464172482387181743273350560880206230598238798927999131197504,
  12603569786855488,
  222801538649561199092036410195464172482387181743273350560880206230598238798927999131197504,
  12603569786855488,
  222801538649561199092036410195464172482387181743273350560880206230598238798927999131197504,
  12603569786855488,
  222801538649561199092036410195464172482387181743273350560880206230598238798927999131197504,
  12603569786855488,
  222801538649561199092036410195464172482387181743273350560880206230598238798927999131197504,
  12603569786855488,
  222801538649561199092036410195464172482387181743273350560880206230598238798927999131197504,
  12603569786855488,
  222801538649561199092036410195464172482387181743273350560880206230598238798927999131197504,
  12603569786855488,
  222801538649561199092036410195464172482387181743273350560880206230598238798927999131197504,
  12603569786855488,
  222801538649561199092036410195464172482387181743273350560880206230598238798927999131197504,
  12603569786855488,
  222801538649561199092036410195464172482387181743273350560880206230598238798927999131197504,
  12603569786855488,
  222801781423887177618664383071334181097802303223253999929512393918947173149912127406612544,
  13166382301323328,
  222801781423887177618664383071334181097802303223253999929512393918947173149912127406612544,
  13166382301323328,
  222801781423887177618664383071334181097802303223253999929512393918947173149912127406612544,
  13166382301323328,
  222801781423887177618664383071334181097802303223253999929512393918947173149912127406612544,
  13166382301323328,
  222801781423887177618664383071334181097802303223253999929512393918947173149912127406612544,
  13166382301323328,
  222801781423887177618664383071334181097802303223253999929512393918947173149912127406612544,
  13166382301323328,
  222801781423887177618664383071334181097802303223253999929512393918947173149912127406612544,
  13166382301323328,
  222801781423887177618664383071334181097802303223253999929512393918947173149912127406612544,
  13166382301323328,
  222801781423887177618664383071334181097802303223253999929512393918947173149912127406612544,
  13166382301323328,
  222801781423887177618664383071334181097802303223253999929512393918947173149912127406612544,
  13166382301323328,
  222801781423887177618664383071334181097802303223253999929512393918947173149912127406612544,
  13166382301323328,
  222801781423887177618664383071334181097802303223253999929512393918947173149912127406612544,
  13166382301323328,
  222801781423887177618664383071334181097802303223253999929512393918947173149912127406612544,
  13166382301323328,
  222801781423887177618664383071334181097802303223253999929512393918947173149912127406612544,
  13166382301323328,
  222801781423887177618664383071334181097802303223253999929512393918947173149912127406612544,
  13166382301323328,
  222801781423887177618664383071334181097802303223253999929512393918947173149912127406612544,
  13166382301323328,
  222801781423887177618664383071334181097802303223253999929512393918947173149912127406612544,
  13166382301323328,
  222801781423887177618664383071334181097802303223253999929512393918947173149912127406612544,
  13166382301323328,
  222801781423887177618664383071334181097802303223253999929512393918947173149912127406612544,
  13166382301323328,
  222801781423887177618664383071334181097802303223253999929512393918947173149912127406612544,
  13166382301323328,
  222801781423887177618664383071334181097802303223253999929512393918947173149912127406612544,
  13166382301323328,
  222801781423887177618664383071334181097802303223253999929512393918947173149912127406612544,
  13166382301323328,
  222801781423887177618664383071334181097802303223253999929512393918947173149912127406612544,
  13166382301323328,
  222801781423887177618664383071334181097802303223253999929512393918947173149912127406612544,
  13166382301323328,
  222801781423887177618664383071334181097802303223253999929512393918947173149912127406612544,
  13166382301323328,
  222801781423887177618664383071334181097802303223253999929512393918947173149912127406612544,
  13166382301323328,
  222801781423887177618664383071334181097802303223253999929512393918947173149912127406612544,
  13166382301323328,
  222801781423887177618664383071334181097802303223253999929512393918947173149912127406612544,
  13166382301323328,
  222801781423887177618664383071334181097802303223253999929512393918947173149912127406612544,
  13166382301323328]
def T3_third_mat_cert_1 : List Nat := [222801781423887177618664383071334181097802303223253999929512393918947173149912127406612544,
  13166382301323328,
  222801781423887177618664383071334181097802303223253999929512393918947173149912127406612544,
  13166382301323328,
  222801781423887177618664383071334181097802303223253999929512393918947173149912127406612544,
  13166382301323328,
  222801781423887177618664383071334181097802303223253999929512393918947173149912127406612544,
  13166382301323328,
  222801781423887177618664383071334181097802303223253999929512393918947173149912127406612544,
  13166382301323328,
  222801781423887177618664383071334181097802303223253999929512393918947173149912127406612544,
  13166382301323328,
  222801781423887177618664383071334181097802303223253999929512393918947173149912127406612544,
  13166382301323328,
  222801538649561199092036410195464172482387181743273350560880206230598238798927999131197504,
  12603569786855488,
  222801538649561199092036410195464172482387181743273350560880206230598238798927999131197504,
  12603569786855488,
  222801538649561199092036410195464172482387181743273350560880206230598238798927999131197504,
  12603569786855488,
  222801538649561199092036410195464172482387181743273350560880206230598238798927999131197504,
  12603569786855488,
  222801538649561199092036410195464172482387181743273350560880206230598238798927999131197504,
  12603569786855488,
  222801538649561199092036410195464172482387181743273350560880206230598238798927999131197504,
  12603569786855488,
  222801538649561199092036410195464172482387181743273350560880206230598238798927999131197504,
  12603569786855488,
  222801538649561199092036410195464172482387181743273350560880206230598238798927999131197504,
  12603569786855488,
  222801538649561199092036410195464172482387181743273350560880206230598238798927999131197504,
  12603569786855488,
  222801538649561199092036410195464172482387181743273350560880206230598238798927999131197504,
  12603569786855488,
  222801538649561199092036410195464172482387181743273350560880206230598238798927999131197504,
  12603569786855488,
  222801538649561199092036410195464172482387181743273350560880206230598238798927999131197504,
  12603569786855488,
  222801538649561199092036410195464172482387181743273350560880206230598238798927999131197504,
  12603569786855488,
  222801538649561199092036410195464172482387181743273350560880206230598238798927999131197504,
  12603569786855488,
  222801538649561199092036410195464172482387181743273350560880206230598238798927999131197504,
  12603569786855488,
  222801538649561199092036410195464172482387181743273350560880206230598238798927999131197504,
  12603569786855488,
  222801538649561199092036410195464172482387181743273350560880206230598238798927999131197504,
  12603569786855488,
  222801538649561199092036410195464172482387181743273350560880206230598238798927999131197504,
  12603569786855488,
  222801538649561199092036410195464172482387181743273350560880206230598238798927999131197504,
  12603569786855488,
  222801538649561199092036410195464172482387181743273350560880206230598238798927999131197504,
  12603569786855488,
  222801538649561199092036410195464172482387181743273350560880206230598238798927999131197504,
  12603569786855488,
  222801538649561199092036410195464172482387181743273350560880206230598238798927999131197504,
  12603569786855488,
  222801538649561199092036410195464172482387181743273350560880206230598238798927999131197504,
  12603569786855488,
  222801538649561199092036410195464172482387181743273350560880206230598238798927999131197504,
  12603569786855488,
  222801538649561199092036410195464172482387181743273350560880206230598238798927999131197504,
  12603569786855488,
  222801538649561199092036410195464172482387181743273350560880206230598238798927999131197504,
  12603569786855488,
  222801538649561199092036410195464172482387181743273350560880206230598238798927999131197504,
  12603569786855488,
  222801781423887177618664383071334181097802303223253999929512393918947173149912127406612544,
  13166382301323328,
  222801781423887177618664383071334181097802303223253999929512393918947173149912127406612544,
  13166382301323328,
  222801781423887177618664383071334181097802303223253999929512393918947173149912127406612544,
  13166382301323328,
  222801781423887177618664383071334181097802303223253999929512393918947173149912127406612544,
  13166382301323328,
  222801781423887177618664383071334181097802303223253999929512393918947173149912127406612544,
  13166382301323328,
  222801781423887177618664383071334181097802303223253999929512393918947173149912127406612544,
  13166382301323328,
  222801781423887177618664383071334181097802303223253999929512393918947173149912127406612544,
  13166382301323328,
  222801781423887177618664383071334181097802303223253999929512393918947173149912127406612544,
  13166382301323328,
  222801781423887177618664383071334181097802303223253999929512393918947173149912127406612544,
  13166382301323328,
  222801781423887177618664383071334181097802303223253999929512393918947173149912127406612544,
  13166382301323328,
  222801781423887177618664383071334181097802303223253999929512393918947173149912127406612544,
  13166382301323328,
  222801781423887177618664383071334181097802303223253999929512393918947173149912127406612544,
  13166382301323328,
  222801781423887177618664383071334181097802303223253999929512393918947173149912127406612544,
  13166382301323328,
  222801781423887177618664383071334181097802303223253999929512393918947173149912127406612544,
  13166382301323328,
  222801781423887177618664383071334181097802303223253999929512393918947173149912127406612544,
  13166382301323328,
  222801781423887177618664383071334181097802303223253999929512393918947173149912127406612544,
  13166382301323328,
  222801781423887177618664383071334181097802303223253999929512393918947173149912127406612544,
  13166382301323328,
  222801781423887177618664383071334181097802303223253999929512393918947173149912127406612544,
  13166382301323328,
  222801781423887177618664383071334181097802303223253999929512393918947173149912127406612544,
  13166382301323328,
  222801781423887177618664383071334181097802303223253999929512393918947173149912127406612544,
  13166382301323328,
  222801781423887177618664383071334181097802303223253999929512393918947173149912127406612544,
  13166382301323328,
  222801781423887177618664383071334181097802303223253999929512393918947173149912127406612544,
  13166382301323328,
  222801781423887177618664383071334181097802303223253999929512393918947173149912127406612544,
  13166382301323328,
  222801781423887177618664383071334181097802303223253999929512393918947173149912127406612544,
  13166382301323328,
  222801781423887177618664383071334181097802303223253999929512393918947173149912127406612544,
  13166382301323328,
  222801781423887177618664383071334181097802303223253999929512393918947173149912127406612544,
  13166382301323328,
  222801781423887177618664383071334181097802303223253999929512393918947173149912127406612544,
  13166382301323328,
  222801781423887177618664383071334181097802303223253999929512393918947173149912127406612544,
  13166382301323328,
  222801781423887177618664383071334181097802303223253999929512393918947173149912127406612544,
  13166382301323328,
  222801781423887177618664383071334181097802303223253999929512393918947173149912127406612544,
  13166382301323328,
  222801781423887177618664383071334181097802303223253999929512393918947173149912127406612544,
  13166382301323328,
  222801781423887177618664383071334181097802303223253999929512393918947173149912127406612544,
  13166382301323328,
  222801781423887177618664383071334181097802303223253999929512393918947173149912127406612544,
  13166382301323328,
  222801781423887177618664383071334181097802303223253999929512393918947173149912127406612544,
  13166382301323328,
  222801781423887177618664383071334181097802303223253999929512393918947173149912127406612544,
  13166382301323328,
  222801781423887177618664383071334181097802303223253999929512393918947173149912127406612544,
  13166382301323328,
  1173555523178753426755378845447142201534984143733599114840276650596136370967379712286439252032,
  918952857356214336,
  1173555523178753426755378845447142201534984143733599114840276650596136370967379712286439252032,
  918952857356214336,
  1173555523178753426755378845447142201534984143733599114840276650596136370967379712286439252032,
  918952857356214336,
  1173555523178753426755378845447142201534984143733599114840276650596136370967379712286439252032,
  918952857356214336,
  1173555523178753426755378845447142201534984143733599114840276650596136370967379712286439252032,
  918952857356214336,
  1173555523178753426755378845447142201534984143733599114840276650596136370967379712286439252032,
  918952857356214336,
  1173555523178753426755378845447142201534984143733599114840276650596136370967379712286439252032,
  918952857356214336,
  1173555523178753426755378845447142201534984143733599114840276650596136370967379712286439252032,
  918952857356214336,
  1173555523178753426755378845447142201534984143733599114840276650596136370967379712286439252032,
  918952857356214336,
  1173555523178753426755378845447142201534984143733599114840276650596136370967379712286439252032,
  918952857356214336,
  912878575582199660403213686258504589987929047731661335266683052467817889013290218167032619072,
  882932856430272576,
  1173555523178753426755378845447142201534984143733599114840276650596136370967379712286439252032,
  918952857356214336,
  1173555523178753426755378845447142201534984143733599114840276650596136370967379712286439252032,
  918952857356214336,
  912878575582199660403213686258504589987929047731661335266683052467817889013290218167032619072,
  882932856430272576,
  912878575582199660403213686258504589987929047731661335266683052467817889013290218167032619072,
  882932856430272576,
  1173555523178753426755378845447142201534984143733599114840276650596136370967379712286439252032,
  918952857356214336,
  912878575582199660403213686258504589987929047731661335266683052467817889013290218167032619072,
  882932856430272576,
  1173555523178753426755378845447142201534984143733599114840276650596136370967379712286439252032,
  918952857356214336,
  1173555523178753426755378845447142201534984143733599114840276650596136370967379712286439252032,
  918952857356214336,
  912878575582199660403213686258504589987929047731661335266683052467817889013290218167032619072,
  882932856430272576,
  912878575582199660403213686258504589987929047731661335266683052467817889013290218167032619072,
  882932856430272576,
  1173555523178753426755378845447142201534984143733599114840276650596136370967379712286439252032,
  918952857356214336,
  912878575582199660403213686258504589987929047731661335266683052467817889013290218167032619072,
  882932856430272576,
  1173555523178753426755378845447142201534984143733599114840276650596136370967379712286439252032,
  918952857356214336,
  1173555523178753426755378845447142201534984143733599114840276650596136370967379712286439252032,
  918952857356214336,
  912878575582199660403213686258504589987929047731661335266683052467817889013290218167032619072,
  882932856430272576,
  912878575582199660403213686258504589987929047731661335266683052467817889013290218167032619072,
  882932856430272576,
  1173555523178753426755378845447142201534984143733599114840276650596136370967379712286439252032,
  918952857356214336,
  912878575582199660403213686258504589987929047731661335266683052467817889013290218167032619072,
  882932856430272576,
  1173555523178753426755378845447142201534984143733599114840276650596136370967379712286439252032,
  918952857356214336,
  1173555523178753426755378845447142201534984143733599114840276650596136370967379712286439252032,
  918952857356214336,
  912878575582199660403213686258504589987929047731661335266683052467817889013290218167032619072,
  882932856430272576,
  912878575582199660403213686258504589987929047731661335266683052467817889013290218167032619072,
  882932856430272576,
  1173555523178753426755378845447142201534984143733599114840276650596136370967379712286439252032,
  918952857356214336,
  912878575582199660403213686258504589987929047731661335266683052467817889013290218167032619072,
  882932856430272576,
  1173555523178753426755378845447142201534984143733599114840276650596136370967379712286439252032,
  918952857356214336,
  1173555523178753426755378845447142201534984143733599114840276650596136370967379712286439252032,
  918952857356214336,
  912878575582199660403213686258504589987929047731661335266683052467817889013290218167032619072,
  882932856430272576,
  912878575582199660403213686258504589987929047731661335266683052467817889013290218167032619072,
  882932856430272576,
  1173555523178753426755378845447142201534984143733599114840276650596136370967379712286439252032,
  918952857356214336,
  912878575582199660403213686258504589987929047731661335266683052467817889013290218167032619072,
  882932856430272576,
  1173555523178753426755378845447142201534984143733599114840276650596136370967379712286439252032,
  918952857356214336,
  1173555523178753426755378845447142201534984143733599114840276650596136370967379712286439252032,
  918952857356214336,
  912878575582199660403213686258504589987929047731661335266683052467817889013290218167032619072,
  882932856430272576,
  912878575582199660403213686258504589987929047731661335266683052467817889013290218167032619072,
  882932856430272576,
  1173555523178753426755378845447142201534984143733599114840276650596136370967379712286439252032,
  918952857356214336,
  1173555523178753426755378845447142201534984143733599114840276650596136370967379712286439252032,
  918952857356214336,
  1173555523178753426755378845447142201534984143733599114840276650596136370967379712286439252032,
  918952857356214336,
  1173555523178753426755378845447142201534984143733599114840276650596136370967379712286439252032,
  918952857356214336,
  1173555523178753426755378845447142201534984143733599114840276650596136370967379712286439252032,
  918952857356214336,
  1173555523178753426755378845447142201534984143733599114840276650596136370967379712286439252032,
  918952857356214336,
  1173555523178753426755378845447142201534984143733599114840276650596136370967379712286439252032,
  918952857356214336,
  1173555523178753426755378845447142201534984143733599114840276650596136370967379712286439252032,
  918952857356214336,
  1173555523178753426755378845447142201534984143733599114840276650596136370967379712286439252032,
  918952857356214336,
  1173555523178753426755378845447142201534984143733599114840276650596136370967379712286439252032,
  918952857356214336,
  912878575582199660403213686258504589987929047731661335266683052467817889013290218167032619072,
  882932856430272576,
  1173555523178753426755378845447142201534984143733599114840276650596136370967379712286439252032,
  918952857356214336,
  1173555523178753426755378845447142201534984143733599114840276650596136370967379712286439252032,
  918952857356214336,
  912878575582199660403213686258504589987929047731661335266683052467817889013290218167032619072,
  882932856430272576,
  912878575582199660403213686258504589987929047731661335266683052467817889013290218167032619072,
  882932856430272576,
  1173555523178753426755378845447142201534984143733599114840276650596136370967379712286439252032,
  918952857356214336,
  912878575582199660403213686258504589987929047731661335266683052467817889013290218167032619072,
  882932856430272576,
  1173555523178753426755378845447142201534984143733599114840276650596136370967379712286439252032,
  918952857356214336,
  1173555523178753426755378845447142201534984143733599114840276650596136370967379712286439252032,
  918952857356214336,
  912878575582199660403213686258504589987929047731661335266683052467817889013290218167032619072,
  882932856430272576,
  912878575582199660403213686258504589987929047731661335266683052467817889013290218167032619072,
  882932856430272576,
  1173555523178753426755378845447142201534984143733599114840276650596136370967379712286439252032,
  918952857356214336,
  912878575582199660403213686258504589987929047731661335266683052467817889013290218167032619072,
  882932856430272576,
  1173555523178753426755378845447142201534984143733599114840276650596136370967379712286439252032,
  918952857356214336,
  1173555523178753426755378845447142201534984143733599114840276650596136370967379712286439252032,
  918952857356214336,
  912878575582199660403213686258504589987929047731661335266683052467817889013290218167032619072,
  882932856430272576,
  912878575582199660403213686258504589987929047731661335266683052467817889013290218167032619072,
  882932856430272576,
  1173555523178753426755378845447142201534984143733599114840276650596136370967379712286439252032,
  918952857356214336,
  912878575582199660403213686258504589987929047731661335266683052467817889013290218167032619072,
  882932856430272576,
  1173555523178753426755378845447142201534984143733599114840276650596136370967379712286439252032,
  918952857356214336,
  1173555523178753426755378845447142201534984143733599114840276650596136370967379712286439252032,
  918952857356214336,
  912878575582199660403213686258504589987929047731661335266683052467817889013290218167032619072,
  882932856430272576,
  912878575582199660403213686258504589987929047731661335266683052467817889013290218167032619072,
  882932856430272576,
  1173555523178753426755378845447142201534984143733599114840276650596136370967379712286439252032,
  918952857356214336,
  912878575582199660403213686258504589987929047731661335266683052467817889013290218167032619072,
  882932856430272576,
  1173555523178753426755378845447142201534984143733599114840276650596136370967379712286439252032,
  918952857356214336,
  1173555523178753426755378845447142201534984143733599114840276650596136370967379712286439252032,
  918952857356214336,
  912878575582199660403213686258504589987929047731661335266683052467817889013290218167032619072,
  882932856430272576,
  912878575582199660403213686258504589987929047731661335266683052467817889013290218167032619072,
  882932856430272576,
  1173555523178753426755378845447142201534984143733599114840276650596136370967379712286439252032,
  918952857356214336,
  912878575582199660403213686258504589987929047731661335266683052467817889013290218167032619072,
  882932856430272576,
  1173555523178753426755378845447142201534984143733599114840276650596136370967379712286439252032,
  918952857356214336,
  1173555523178753426755378845447142201534984143733599114840276650596136370967379712286439252032,
  918952857356214336,
  912878575582199660403213686258504589987929047731661335266683052467817889013290218167032619072,
  882932856430272576,
  912878575582199660403213686258504589987929047731661335266683052467817889013290218167032619072,
  882932856430272576,
  1173555523907076404690958729365769811560830389098039056788382547159201417770432664671265497152,
  918952994795167808,
  1173555523907076404690958729365769811560830389098039056788382547159201417770432664671265497152,
  918952994795167808,
  1173555523907076404690958729365769811560830389098039056788382547159201417770432664671265497152,
  918952994795167808,
  1173555523907076404690958729365769811560830389098039056788382547159201417770432664671265497152,
  918952994795167808,
  1173555523907076404690958729365769811560830389098039056788382547159201417770432664671265497152,
  918952994795167808,
  1173555523907076404690958729365769811560830389098039056788382547159201417770432664671265497152,
  918952994795167808,
  1173555523907076404690958729365769811560830389098039056788382547159201417770432664671265497152,
  918952994795167808,
  1173555523907076404690958729365769811560830389098039056788382547159201417770432664671265497152,
  918952994795167808,
  1173555523907076404690958729365769811560830389098039056788382547159201417770432664671265497152,
  918952994795167808,
  1173555523907076404690958729365769811560830389098039056788382547159201417770432664671265497152,
  918952994795167808,
  912878576310522638338793570177132200013775293096101277214788949030882935816343170551858864192,
  882932993869226048,
  1173555523907076404690958729365769811560830389098039056788382547159201417770432664671265497152,
  918952994795167808,
  1173555523907076404690958729365769811560830389098039056788382547159201417770432664671265497152,
  918952994795167808,
  912878576310522638338793570177132200013775293096101277214788949030882935816343170551858864192,
  882932993869226048,
  912878576310522638338793570177132200013775293096101277214788949030882935816343170551858864192,
  882932993869226048,
  1173555523907076404690958729365769811560830389098039056788382547159201417770432664671265497152,
  918952994795167808,
  912878576310522638338793570177132200013775293096101277214788949030882935816343170551858864192,
  882932993869226048,
  1173555523907076404690958729365769811560830389098039056788382547159201417770432664671265497152,
  918952994795167808,
  1173555523907076404690958729365769811560830389098039056788382547159201417770432664671265497152,
  918952994795167808,
  912878576310522638338793570177132200013775293096101277214788949030882935816343170551858864192,
  882932993869226048,
  912878576310522638338793570177132200013775293096101277214788949030882935816343170551858864192,
  882932993869226048,
  1173555523907076404690958729365769811560830389098039056788382547159201417770432664671265497152,
  918952994795167808,
  912878576310522638338793570177132200013775293096101277214788949030882935816343170551858864192,
  882932993869226048,
  1173555523907076404690958729365769811560830389098039056788382547159201417770432664671265497152,
  918952994795167808,
  1173555523907076404690958729365769811560830389098039056788382547159201417770432664671265497152,
  918952994795167808,
  912878576310522638338793570177132200013775293096101277214788949030882935816343170551858864192,
  882932993869226048,
  912878576310522638338793570177132200013775293096101277214788949030882935816343170551858864192,
  882932993869226048,
  1173555523907076404690958729365769811560830389098039056788382547159201417770432664671265497152,
  918952994795167808,
  912878576310522638338793570177132200013775293096101277214788949030882935816343170551858864192,
  882932993869226048,
  1173555523907076404690958729365769811560830389098039056788382547159201417770432664671265497152,
  918952994795167808,
  1173555523907076404690958729365769811560830389098039056788382547159201417770432664671265497152,
  918952994795167808,
  912878576310522638338793570177132200013775293096101277214788949030882935816343170551858864192,
  882932993869226048,
  912878576310522638338793570177132200013775293096101277214788949030882935816343170551858864192,
  882932993869226048,
  1173555523907076404690958729365769811560830389098039056788382547159201417770432664671265497152,
  918952994795167808,
  912878576310522638338793570177132200013775293096101277214788949030882935816343170551858864192,
  882932993869226048,
  1173555523907076404690958729365769811560830389098039056788382547159201417770432664671265497152,
  918952994795167808,
  1173555523907076404690958729365769811560830389098039056788382547159201417770432664671265497152,
  918952994795167808,
  912878576310522638338793570177132200013775293096101277214788949030882935816343170551858864192,
  882932993869226048,
  912878576310522638338793570177132200013775293096101277214788949030882935816343170551858864192,
  882932993869226048,
  1173555523907076404690958729365769811560830389098039056788382547159201417770432664671265497152,
  918952994795167808]
def T3_third_mat_cert_2 : List Nat := [912878576310522638338793570177132200013775293096101277214788949030882935816343170551858864192,
  882932993869226048,
  1173555523907076404690958729365769811560830389098039056788382547159201417770432664671265497152,
  918952994795167808,
  1173555523907076404690958729365769811560830389098039056788382547159201417770432664671265497152,
  918952994795167808,
  912878576310522638338793570177132200013775293096101277214788949030882935816343170551858864192,
  882932993869226048,
  912878576310522638338793570177132200013775293096101277214788949030882935816343170551858864192,
  882932993869226048,
  1173555523907076404690958729365769811560830389098039056788382547159201417770432664671265497152,
  918952994795167808,
  1173555523907076404690958729365769811560830389098039056788382547159201417770432664671265497152,
  918952994795167808,
  1173555523907076404690958729365769811560830389098039056788382547159201417770432664671265497152,
  918952994795167808,
  1173555523907076404690958729365769811560830389098039056788382547159201417770432664671265497152,
  918952994795167808,
  1173555523907076404690958729365769811560830389098039056788382547159201417770432664671265497152,
  918952994795167808,
  1173555523907076404690958729365769811560830389098039056788382547159201417770432664671265497152,
  918952994795167808,
  1173555523907076404690958729365769811560830389098039056788382547159201417770432664671265497152,
  918952994795167808,
  1173555523907076404690958729365769811560830389098039056788382547159201417770432664671265497152,
  918952994795167808,
  1173555523907076404690958729365769811560830389098039056788382547159201417770432664671265497152,
  918952994795167808,
  1173555523907076404690958729365769811560830389098039056788382547159201417770432664671265497152,
  918952994795167808,
  912878576310522638338793570177132200013775293096101277214788949030882935816343170551858864192,
  882932993869226048,
  1173555523907076404690958729365769811560830389098039056788382547159201417770432664671265497152,
  918952994795167808,
  1173555523907076404690958729365769811560830389098039056788382547159201417770432664671265497152,
  918952994795167808,
  912878576310522638338793570177132200013775293096101277214788949030882935816343170551858864192,
  882932993869226048,
  912878576310522638338793570177132200013775293096101277214788949030882935816343170551858864192,
  882932993869226048,
  1173555523907076404690958729365769811560830389098039056788382547159201417770432664671265497152,
  918952994795167808,
  912878576310522638338793570177132200013775293096101277214788949030882935816343170551858864192,
  882932993869226048,
  1173555523907076404690958729365769811560830389098039056788382547159201417770432664671265497152,
  918952994795167808,
  1173555523907076404690958729365769811560830389098039056788382547159201417770432664671265497152,
  918952994795167808,
  912878576310522638338793570177132200013775293096101277214788949030882935816343170551858864192,
  882932993869226048,
  912878576310522638338793570177132200013775293096101277214788949030882935816343170551858864192,
  882932993869226048,
  1173555523907076404690958729365769811560830389098039056788382547159201417770432664671265497152,
  918952994795167808,
  912878576310522638338793570177132200013775293096101277214788949030882935816343170551858864192,
  882932993869226048,
  1173555523907076404690958729365769811560830389098039056788382547159201417770432664671265497152,
  918952994795167808,
  1173555523907076404690958729365769811560830389098039056788382547159201417770432664671265497152,
  918952994795167808,
  912878576310522638338793570177132200013775293096101277214788949030882935816343170551858864192,
  882932993869226048,
  912878576310522638338793570177132200013775293096101277214788949030882935816343170551858864192,
  882932993869226048,
  1173555523907076404690958729365769811560830389098039056788382547159201417770432664671265497152,
  918952994795167808,
  912878576310522638338793570177132200013775293096101277214788949030882935816343170551858864192,
  882932993869226048,
  1173555523907076404690958729365769811560830389098039056788382547159201417770432664671265497152,
  918952994795167808,
  1173555523907076404690958729365769811560830389098039056788382547159201417770432664671265497152,
  918952994795167808,
  912878576310522638338793570177132200013775293096101277214788949030882935816343170551858864192,
  882932993869226048,
  912878576310522638338793570177132200013775293096101277214788949030882935816343170551858864192,
  882932993869226048,
  1173555523907076404690958729365769811560830389098039056788382547159201417770432664671265497152,
  918952994795167808,
  912878576310522638338793570177132200013775293096101277214788949030882935816343170551858864192,
  882932993869226048,
  1173555523907076404690958729365769811560830389098039056788382547159201417770432664671265497152,
  918952994795167808,
  1173555523907076404690958729365769811560830389098039056788382547159201417770432664671265497152,
  918952994795167808,
  912878576310522638338793570177132200013775293096101277214788949030882935816343170551858864192,
  882932993869226048,
  912878576310522638338793570177132200013775293096101277214788949030882935816343170551858864192,
  882932993869226048,
  1173555523907076404690958729365769811560830389098039056788382547159201417770432664671265497152,
  918952994795167808,
  912878576310522638338793570177132200013775293096101277214788949030882935816343170551858864192,
  882932993869226048,
  1173555523907076404690958729365769811560830389098039056788382547159201417770432664671265497152,
  918952994795167808,
  1173555523907076404690958729365769811560830389098039056788382547159201417770432664671265497152,
  918952994795167808,
  912878576310522638338793570177132200013775293096101277214788949030882935816343170551858864192,
  882932993869226048,
  912878576310522638338793570177132200013775293096101277214788949030882935816343170551858864192,
  882932993869226048,
  1720191378268224,
  1720191378268224,
  1720189231308864,
  1720189231308864,
  1720191377744064,
  1720191377744064,
  1720189230260544,
  1720187083825344,
  1720187083825344,
  1720189230260544,
  1720187083301184,
  1720187083301184,
  1720191344721984,
  1720191344721984,
  1720189197762624,
  1720189197762624,
  1720191344197824,
  1720191344197824,
  1720189196714304,
  1720187050279104,
  1720187050279104,
  1720189196714304,
  1720187049754944,
  1720187049754944,
  1720191378260034,
  1720191378260034,
  1720189231300674,
  1720189231300674,
  1720191377735874,
  1720191377735874,
  1720189230252354,
  1720187083817154,
  1720187083817154,
  1720189230252354,
  1720187083292994,
  1720187083292994,
  1720191344705604,
  1720191311167554,
  1720189197746244,
  1720189164208194,
  1720191344181444,
  1720191310643394,
  1720189196697924,
  1720187016724674,
  1720187050262724,
  1720189163159874,
  1720187049738564,
  1720187016200514,
  1720191311167554,
  1720191344705604,
  1720189164208194,
  1720189197746244,
  1720191310643394,
  1720191344181444,
  1720189163159874,
  1720187050262724,
  1720187016724674,
  1720189196697924,
  1720187016200514,
  1720187049738564,
  1720191311159364,
  1720191311159364,
  1720189164200004,
  1720189164200004,
  1720191310635204,
  1720191310635204,
  1720189163151684,
  1720187016716484,
  1720187016716484,
  1720189163151684,
  1720187016192324,
  1720187016192324,
  162160790664388672,
  162160790664388672,
  162160788517429312,
  162160788517429312,
  162160790663864512,
  162160790663864512,
  162160788516380992,
  162160786369945792,
  162160786369945792,
  162160788516380992,
  162160786369421632,
  162160786369421632,
  162160790630842432,
  162160790630842432,
  162160788483883072,
  162160788483883072,
  162160790630318272,
  162160790630318272,
  162160788482834752,
  162160786336399552,
  162160786336399552,
  162160788482834752,
  162160786335875392,
  162160786335875392,
  162160790664380482,
  162160790664380482,
  162160788517421122,
  162160788517421122,
  162160790663856322,
  162160790663856322,
  162160788516372802,
  162160786369937602,
  162160786369937602,
  162160788516372802,
  162160786369413442,
  162160786369413442,
  162160790630826052,
  162160790597288002,
  162160788483866692,
  162160788450328642,
  162160790630301892,
  162160790596763842,
  162160788482818372,
  162160786302845122,
  162160786336383172,
  162160788449280322,
  162160786335859012,
  162160786302320962,
  162160790597288002,
  162160790630826052,
  162160788450328642,
  162160788483866692,
  162160790596763842,
  162160790630301892,
  162160788449280322,
  162160786336383172,
  162160786302845122,
  162160788482818372,
  162160786302320962,
  162160786335859012,
  162160790597279812,
  162160790597279812,
  162160788450320452,
  162160788450320452,
  162160790596755652,
  162160790596755652,
  162160788449272132,
  162160786302836932,
  162160786302836932,
  162160788449272132,
  162160786302312772,
  162160786302312772,
  2283003892736064,
  2283003892736064,
  2283001745776704,
  2283001745776704,
  2283003892211904,
  2283003892211904,
  2283001744728384,
  2282999598293184,
  2282999598293184,
  2283001744728384,
  2282999597769024,
  2282999597769024,
  2283003859189824,
  2283003859189824,
  2283001712230464,
  2283001712230464,
  2283003858665664,
  2283003858665664,
  2283001711182144,
  2282999564746944,
  2282999564746944,
  2283001711182144,
  2282999564222784,
  2282999564222784,
  2283003892727874,
  2283003892727874,
  2283001745768514,
  2283001745768514,
  2283003892203714,
  2283003892203714,
  2283001744720194,
  2282999598284994,
  2282999598284994,
  2283001744720194,
  2282999597760834,
  2282999597760834,
  2283003859173444,
  2283003825635394,
  2283001712214084,
  2283001678676034,
  2283003858649284,
  2283003825111234,
  2283001711165764,
  2282999531192514,
  2282999564730564,
  2283001677627714,
  2282999564206404,
  2282999530668354,
  2283003825635394,
  2283003859173444,
  2283001678676034,
  2283001712214084,
  2283003825111234,
  2283003858649284,
  2283001677627714,
  2282999564730564,
  2282999531192514,
  2283001711165764,
  2282999530668354,
  2282999564206404,
  2283003825627204,
  2283003825627204,
  2283001678667844,
  2283001678667844,
  2283003825103044,
  2283003825103044,
  2283001677619524,
  2282999531184324,
  2282999531184324,
  2283001677619524,
  2282999530660164,
  2282999530660164,
  162160790664388672,
  162160790664388672,
  162160788517429312,
  162160788517429312,
  126140789737922752,
  126140789737922752,
  126140787590439232,
  126140785444004032,
  162160786369945792,
  162160788516380992,
  126140785443479872,
  126140785443479872,
  162160790630842432,
  162160790630842432,
  162160788483883072,
  162160788483883072,
  126140789704376512,
  126140789704376512,
  126140787556892992,
  126140785410457792,
  162160786336399552,
  162160788482834752,
  126140785409933632,
  126140785409933632,
  162160790664380482,
  162160790664380482,
  162160788517421122,
  162160788517421122,
  126140789737914562,
  126140789737914562,
  126140787590431042,
  126140785443995842,
  162160786369937602,
  162160788516372802,
  126140785443471682,
  126140785443471682,
  162160790630826052,
  162160790597288002,
  162160788483866692,
  162160788450328642,
  126140789704360132,
  126140789670822082,
  126140787556876612,
  126140785376903362,
  162160786336383172,
  162160788449280322,
  126140785409917252,
  126140785376379202,
  162160790597288002,
  162160790630826052,
  162160788450328642,
  162160788483866692,
  126140789670822082,
  126140789704360132,
  126140787523338562,
  126140785410441412,
  162160786302845122,
  162160788482818372,
  126140785376379202,
  126140785409917252,
  162160790597279812,
  162160790597279812,
  162160788450320452,
  162160788450320452,
  126140789670813892,
  126140789670813892,
  126140787523330372,
  126140785376895172,
  162160786302836932,
  162160788449272132,
  126140785376371012,
  126140785376371012]

/-- Check T3_third_mat. C77 -/
theorem T3_third_mat : isZero kinds [aᵥ, bᵥ, cᵥ, iₒ, jₒ, kₒ] 128
    (Wick.matP ⟨1, [], [(true, 0), (true, 2), (true, 4), (false, 5), (false, 3), (false, 1)]⟩ [1, 3, 5, 0, 2, 4] [(1/128, [2, 2], .fluct)] ++ (Prog.scale (-1) (Prog.outs [3, 4, 5, 0, 1, 2] (Prog.through tamps_antisym_T3 (build_T3_thirdO)))))
    (T3_third_mat_cert_0 ++ (T3_third_mat_cert_1 ++ (T3_third_mat_cert_2))) = true := by decide +kernel

def netT1_mat_cert_0 : List Nat := [23312145292282139017482181046517248902212512298748719954164395826365073526496394477632,
  750690368,
  391110907699173511191136717823647081963470691331802363467954022370094165337947786282614652992,
  751755328,
  391110907941947837169663345796522951972086106453282344117322654557782514272298770410890068032,
  785301568,
  391110907941947837169663345796522951972086106453282344117322654557782514272298770410890068032,
  785301568,
  95486547117187641415607013566534651503462450375674756932257365304791341164529231780118592,
  784777280,
  95486547117187641415607013566534651503462450375674756932257365304791341164529231780118592,
  784777280,
  95486304342861662888979040690664642888047328895694107563625177616442406813545103504703552,
  751231040,
  651946998488485512190885959574702069482093621762873565197462320845753704830706203909165154368,
  54773858368,
  651946998731259838169412587547577939490709036884353545846830953033442053765057188037440569408,
  54773866560,
  67903552,
  67903552,
  5369503808,
  5369503808]

/-- Check netT1_mat. C77 -/
theorem netT1_mat : isZero kinds [aᵥ, iₒ] 16
    (Wick.matP ⟨1, [], [(true, 0), (false, 1)]⟩ [1, 0] [(1/16, [2], .fluct)] ++ (Prog.scale (-1) (Prog.outs [1, 0] (get_netT1_fromT2))))
    (netT1_mat_cert_0) = true := by decide +kernel

def netT1_third_mat_cert_0 : List Nat := [177856649068517676170605032973344626462622696446423906364607222637328205227229248,
  3035638300736,
  177856649068517676170605032973344626462622696446423906364607075099404412569780288,
  3033491341376,
  177856649068517676170605032973344626462622696446423906364607222637328205227229248,
  3035638300736,
  177856649068517676170605032973344626462622696446423906364607075099404412569780288,
  3033491341376,
  177856649068517676170605032973344626462622696446423906364607222637328205227229248,
  3035638300736,
  177856649068517676170605032973344626462622696446423906364607222637328205227229248,
  3035638300736,
  118571099379011784113736688648896417641748464297615937576404937320559573544730688,
  562307571776,
  118571099379011784113736688648896417641748464297615937576404789782635780887281728,
  560160612416,
  118571099379011784113736688648896417641748464297615937576404941931119692065275968,
  699746517056,
  118571099379011784113736688648896417641748464297615937576404794393195899407827008,
  697599557696,
  118571099379011784113736688648896417641748464297615937576404937320559573544730688,
  562307571776,
  118571099379011784113736688648896417641748464297615937576404941931119692065275968,
  699746517056,
  118571099379011784113736688648896417641748464297615937576404937320559573544730688,
  562307571776,
  118571099379011784113736688648896417641748464297615937576404789782635780887281728,
  560160612416,
  118571099379011784113736688648896417641748464297615937576404941931119692065275968,
  699746517056,
  118571099379011784113736688648896417641748464297615937576404794393195899407827008,
  697599557696,
  118571099379011784113736688648896417641748464297615937576404937320559573544730688,
  562307571776,
  118571099379011784113736688648896417641748464297615937576404941931119692065275968,
  699746517056,
  728500834584648401594798215058819589990902564644552320469429654025690280590053474368,
  3173077254208,
  728500834584648401594798215058819589990902564644552320469429654025690280590053474368,
  3173077254208,
  728500834584648401594798215058819589990902564644552320469429653878152356797396025408,
  3170930294848,
  728500834584648401594798215058819589990902564644552320469429654025690280590053474368,
  3173077254208,
  728500834584648401594798215058819589990902564644552320469429653878152356797396025408,
  3170930294848,
  728500834584648401594798215058819589990902564644552320469429654025690280590053474368,
  3173077254208,
  485667223056432267729865476705879726660601709763034880312953102806022527830095560768,
  562341126208,
  485667223056432267729865476705879726660601709763034880312953102810633087948616106048,
  699780071488,
  485667223056432267729865476705879726660601709763034880312953102658484604037438111808,
  560194166848,
  485667223056432267729865476705879726660601709763034880312953102806022527830095560768,
  562341126208,
  485667223056432267729865476705879726660601709763034880312953102663095164155958657088,
  697633112128,
  485667223056432267729865476705879726660601709763034880312953102810633087948616106048,
  699780071488,
  485667223056432267729865476705879726660601709763034880312953102806022527830095560768,
  562341126208,
  485667223056432267729865476705879726660601709763034880312953102810633087948616106048,
  699780071488,
  485667223056432267729865476705879726660601709763034880312953102658484604037438111808,
  560194166848,
  485667223056432267729865476705879726660601709763034880312953102806022527830095560768,
  562341126208,
  485667223056432267729865476705879726660601709763034880312953102663095164155958657088,
  697633112128,
  485667223056432267729865476705879726660601709763034880312953102810633087948616106048,
  699780071488,
  651851512427035547605902620291001011536469885973099600203564943793402016148061744561888690240,
  39637316575296,
  651851512427035547605902620291001011536469885973099600203564943793402016443137592147203588160,
  48433409073216,
  651851512427035547605902620291001011536469885973099600203564943793402016150367024621148962880,
  39637350121536,
  651851512427035547605902620291001011536469885973099600203564943793402016445442872206463860800,
  48433442619456,
  651851512427035547605902620291001011536469885973099600203564943793402016148061744561888690240,
  39637316575296,
  651851512427035547605902620291001011536469885973099600203564943793402016443137592147203588160,
  48433409073216,
  651851512427035547605902620291001011536469885973099600203564943793402016150367024621148962880,
  39637350121536,
  651851512427035547605902620291001011536469885973099600203564943793402016445442872206463860800,
  48433442619456,
  912592117397849766648263668407401416151057840362339440284990921310762822665270737949002039360,
  224312319844416,
  912592117397849766648263668407401416151057840362339440284990921310762822665270737949002039360,
  224312319844416,
  912592117397849766648263668407401416151057840362339440284990921310762822667576018008262312000,
  224312353390656,
  912592117397849766648263668407401416151057840362339440284990921310762822667576018008262312000,
  224312353390656,
  391110907456221328563541572174600606921881931583859760122138966276041209928233878819350511680,
  39594410934336,
  391110907456221328563541572174600606921881931583859760122138966276041210075771802612007960640,
  48388356472896,
  391110907456221328563541572174600606921881931583859760122138966276041209928233878819350511680,
  39594410934336,
  391110907456221328563541572174600606921881931583859760122138966276041210075771802612007960640,
  48388356472896,
  912592117397849766648263668407401416151057840362339440284990921310762822667576018008262312000,
  224312353390656,
  912592117397849766648263668407401416151057840362339440284990921310762822667576018008262312000,
  224312353390656,
  95486061390679035293833391644189601299287580953090761748569083563486997099637640240562240,
  39594410410048,
  95486061390679035293833391644189601299287580953090761748569083563487144637561432898011200,
  48388355948608,
  95486061390679035293833391644189601299287580953090761748569083563486997099637640240562240,
  39594410410048,
  95486061390679035293833391644189601299287580953090761748569083563487144637561432898011200,
  48388355948608,
  222800809911584415685611247169775736365004355557211777413327861648135828262788590339096640,
  215516260368448,
  222800809911584415685611247169775736365004355557211777413327861648135828262788590339096640,
  215516260368448,
  159143435651131725489722319406982668832145968255151269580948472605811265143289322632380480,
  39635202637888,
  159143435651131725489722319406982668832145968255151269580948472605811560219136907947278400,
  48431295135808,
  159143435651131725489722319406982668832145968255151269580948472605811262838009263372107840,
  39635169091648,
  159143435651131725489722319406982668832145968255151269580948472605811557913856848687005760,
  48431261589568,
  159143435651131725489722319406982668832145968255151269580948472605811265143289322632380480,
  39635202637888,
  159143435651131725489722319406982668832145968255151269580948472605811560219136907947278400,
  48431295135808,
  159143435651131725489722319406982668832145968255151269580948472605811262838009263372107840,
  39635169091648,
  159143435651131725489722319406982668832145968255151269580948472605811557913856848687005760,
  48431261589568,
  222800809911584415685611247169775736365004355557211777413327861648135828262788590339096640,
  215516260368448,
  222800809911584415685611247169775736365004355557211777413327861648135828262788590339096640,
  215516260368448,
  222800809911584415685611247169775736365004355557211777413327861648135825957508531078824000,
  215516226822208,
  222800809911584415685611247169775736365004355557211777413327861648135825957508531078824000,
  215516226822208,
  21993489186880,
  13201690607680,
  278134022208,
  140762169408,
  21993522733120,
  13201724153920,
  140728623168,
  140728623168,
  13199543648320,
  13199543648320,
  280280981568,
  142909128768,
  21993522733120,
  13201724153920,
  142875582528,
  142875582528]

/-- Check netT1_third_mat. C77 -/
theorem netT1_third_mat : isZero kinds [aᵥ, iₒ] 64
    (Prog.rep 71 39 [2, 3, 0, 1] (Wick.matP ⟨1, [⟨71, [8, 10, 9, 11]⟩], [(true, 0), (false, 1), (true, 8), (true, 10), (false, 11), (false, 9)]⟩ [1, 0] [(1/64, [2], .fluct)]) ++ (Prog.scale (-1) (Prog.outs [1, 0] (get_netT1_thirdO))))
    (netT1_third_mat_cert_0) = true := by decide +kernel

def netT2_mat_cert_0 : List Nat := [38853555730111672245394457597396097729646576367056733015352753811491517860649580109888,
  3074828279872,
  651851512912880627311403405697037093275322957260163932663046248012719725208029971847117021248,
  3079190356032,
  651851513155654953289930033669912963283938372381643913312414880200408074142380955975392436288,
  3216595755072,
  651851513155654953289930033669912963283938372381643913312414880200408074142380955975392436288,
  3216595755072,
  651851513155654953289930033669912963283938372381643913312414880200408074142380955975392436288,
  3216595755072,
  159144164270537409517135698318934416300632376799464378430884879611869257157220676875853888,
  3214448271424,
  159144164270537409517135698318934416300632376799464378430884879611869257157220676875853888,
  3214448271424,
  159144164270537409517135698318934416300632376799464378430884879611869257157220676875853888,
  3214448271424,
  159143921496211430990507725443064407685217255319483729062252691923520322806236548600438848,
  3077042872384,
  912751260833619469473132402510922135508538882748236340018869485720945037899042958095084691520,
  224353724407872,
  912751260833619469473132402510922135508538882748236340018869485720945037899042958095084691520,
  224353724407872,
  912751261319168121430185658456673875525769712991196301317606750096321735767744926351635521600,
  224353757962304,
  912751261319168121430185658456673875525769712991196301317606750096321735767744926351635521600,
  224353757962304,
  417753473088,
  417753473088,
  417753464898,
  417753464898,
  417752948928,
  417752948928,
  417752940738,
  417752940738,
  30791762190400,
  30791762190400,
  30791762182210,
  30791762182210,
  30791761666240,
  30791761666240,
  30791761658050,
  30791761658050]

/-- Check netT2_mat. C77 -/
theorem netT2_mat : isZero kinds [aᵥ, bᵥ, iₒ, jₒ] 144
    (Wick.matP ⟨1, [], [(true, 0), (true, 2), (false, 3), (false, 1)]⟩ [1, 3, 0, 2] [(1/144, [3], .fluct)] ++ (Prog.scale (-1) (Prog.outs [2, 3, 0, 1] (Prog.through tamps_antisym_T2 (build_netT2)))))
    (netT2_mat_cert_0) = true := by decide +kernel

def T1bar_mat_cert_0 : List Nat := [118571099379011784113736688648896417641748464297615937576404566024103044752089152,
  738992192,
  118571099379011784113736688648896417641748464297615937576404566024103044752089152,
  738992192,
  118571099379011784113736688648896417641748464297615937576404566024103044752089152,
  738992192,
  118571099379011784113736688648896417641748464297615937576404566024103044752089152,
  738992192,
  485667223056432267729865476705879726660601709763034880312953102434726071301302919232,
  772546624,
  485667223056432267729865476705879726660601709763034880312953102434726071301302919232,
  772546624,
  485667223056432267729865476705879726660601709763034880312953102434726071301302919232,
  772546624,
  485667223056432267729865476705879726660601709763034880312953102434726071301302919232,
  772546624,
  651851512427035547605902620291001011536469885973099600203564943793402015924267745978687955008,
  54761627712,
  651851512427035547605902620291001011536469885973099600203564943793402015924267745978687955008,
  54761627712,
  651851512427035547605902620291001011536469885973099600203564943793402015924267745978687955008,
  54761627712,
  651851512427035547605902620291001011536469885973099600203564943793402015924267745978687955008,
  54761627712,
  159143435651131725489722319406982668832145968255151269580948472605811039044010680171372608,
  52614144064,
  159143435651131725489722319406982668832145968255151269580948472605811039044010680171372608,
  52614144064,
  159143435651131725489722319406982668832145968255151269580948472605811039044010680171372608,
  52614144064,
  159143435651131725489722319406982668832145968255151269580948472605811039044010680171372608,
  52614144064,
  67903552,
  67903552,
  67895362,
  67895362,
  67379392,
  67379392,
  67371202,
  67371202,
  5369503808,
  5369503808,
  5369495618,
  5369495618,
  5368979648,
  5368979648,
  5368971458,
  5368971458]

/-- Check T1bar_mat. C77 -/
theorem T1bar_mat : isZero kinds [aᵥ, bᵥ, iₒ, jₒ] 4
    (Wick.matP ⟨1, [], [(true, 0), (true, 2), (false, 3), (false, 1)]⟩ [1, 3, 0, 2] [(1/4, [1], .fluct)] ++ (Prog.scale (-1) (Prog.outs [2, 3, 0, 1] (Prog.through tamps_antisym_T2 (get_T2resid_fromT1bar)))))
    (T1bar_mat_cert_0) = true := by decide +kernel

def squareT_mat_cert_0 : List Nat := [7770734854452605789569904495638400074778448230440706892976037841614536771940477042688,
  699142687722,
  130370302485466395070870029950257070651618425403440794272861796727468605843773180315380482048,
  699142687982,
  130370302728240721049396657923132940660233840524920774922230428915156954778124164443655897088,
  699142696172,
  130370302971133618127302297680122547357498152064042504035896677040421708271582285538994946048,
  562341268682,
  130370302971133618127302297680122547357498152064042504035896677040421708278498125716775763968,
  699780222152,
  31829172856734951219718085803741583970604063073614249099877976262467301453378657072447488,
  699780222024,
  31829172856734951219718085803741583970604063073614249099877976262467294537538479291629568,
  562341268554,
  31828929963837873314078328814134886706292523951885135433629850997713801079417383952580608,
  699142696044,
  31828687189511894787450355938264878090877402471904486064997663309364866728433255677165568,
  699142687854,
  651946998488426226641196453682645201137769173554052690965313512876965502626219478439574896640,
  39637360083692,
  651946998488426226641196453682645201137769173554052690965313512876965503068833249817547243520,
  48433453105772,
  651946998488426226641196453682645201137769173554052690965313512876965502626219478439574896640,
  39637360083694,
  651946998488426226641196453682645201137769173554052690965313512876965503068833249817547243520,
  48433453105774,
  138580590918,
  1141662018,
  21993454059970,
  4405597569220]

/-- Check squareT_mat. C77 -/
theorem squareT_mat : isZero kinds [] 576
    (Wick.matP ⟨1, [⟨71, [8, 10, 9, 11]⟩], [(true, 8), (true, 10), (false, 11), (false, 9)]⟩ [] [(1/576, [3], .fluct)] ++ (Prog.scale (-1) (pdagq_T3energy)))
    (squareT_mat_cert_0) = true := by decide +kernel

def parenT_mat_cert_0 : List Nat := [391142736386185166436855650503414741808588224107811645257572596127038922979823683266351726592,
  9811455084,
  3255042372,
  1075069122]

/-- Check parenT_mat. C77 -/
theorem parenT_mat : isZero kinds [] 144
    (Wick.matP ⟨1, [⟨63, [8, 9]⟩], [(true, 8), (false, 9)]⟩ [] [(1/144, [3], .fluct)] ++ (Prog.scale (-1) (getE_parenT_t1)))
    (parenT_mat_cert_0) = true := by decide +kernel

def pertQf_mat_cert_0 : List Nat := [485845079705500785406036081738853071287064332459481304223070517785126031327047450624,
  9226238199229899596,
  485845079705500785406036081738853071287064332459481304223070517785126031327047450624,
  9226238199229899596,
  728619405684027413378911951747468486408544313108849936408283590958583418486714793984,
  11531509601949508556,
  728619405684027413378911951747468486408544313108849936410758866574244371721925689344,
  11531509601950032716,
  728619405684027413378911951747468486408544313108849936408283590958583418486714793984,
  11531509601949508556,
  728619405684027413378911951747468486408544313108849936410758866574244371721925689344,
  11531509601950032716,
  728619405684027413378911951747468486408544313108849936408283591106121342279372242944,
  11531518395895047116,
  728619405684027413378911951747468486408544313108849936410758866721782295514583138304,
  11531518395895571276,
  728619405684027413378911951747468486408544313108849936408283591106121342279372242944,
  11531518395895047116,
  728619405684027413378911951747468486408544313108849936410758866721782295514583138304,
  11531518395895571276,
  728619405684027413378911951747468486408544313108849936410758866721782295514583138304,
  11531518395895571276,
  728619405684027413378911951747468486408544313108849936410758866721782295514583138304,
  11531518395895571276,
  728619405684027413378911951747468486408544313108849936415711882721659082120347254784,
  13837379001589228106,
  728619405684027413378911951747468486408544313108849936415866587447637891697547935744,
  16143222010802913866,
  728619405684027413378911951747468486408544313108849936410760726879925473339699625984,
  13837370201202287306,
  728619405684027413378911951747468486408544313108849936415711278111247379810121416704,
  13837378997294785226,
  728619405684027413378911951747468486408544313108849936410915431605904282916900306944,
  16143213210415973066,
  728619405684027413378911951747468486408544313108849936415865982837226189387322097664,
  16143222006508470986,
  728619405684027413378911951747468486408544313108849936410760727175001320925014523904,
  13837370203349770826,
  728619405684027413378911951747468486408544313108849936415711278406323227395436314624,
  13837378999442268746,
  728619405684027413378911951747468486408544313108849936410915431900980130502215204864,
  16143213212563456586,
  728619405684027413378911951747468486408544313108849936415865983132302036972636995584,
  16143222008655954506,
  728619405684027413378911951747468486408544313108849936410758913933917909164966805504,
  13837361405109265226,
  728619405684027413378911951747468486408544313108849936410913618659896718742167486464,
  16143204414322950986,
  728619405684027413378911951747468486408544313108849936415711882721659082120347254784,
  13837379001589228106,
  728619405684027413378911951747468486408544313108849936415866587447637891697547935744,
  16143222010802913866,
  728619405684027413378911951747468486408544313108849936410760726879925473339699625984,
  13837370201202287306,
  728619405684027413378911951747468486408544313108849936415711278111247379810121416704,
  13837378997294785226,
  728619405684027413378911951747468486408544313108849936410915431605904282916900306944,
  16143213210415973066,
  728619405684027413378911951747468486408544313108849936415865982837226189387322097664,
  16143222006508470986,
  728619405684027413378911951747468486408544313108849936410760727175001320925014523904,
  13837370203349770826,
  728619405684027413378911951747468486408544313108849936415711278406323227395436314624,
  13837378999442268746,
  728619405684027413378911951747468486408544313108849936410915431900980130502215204864,
  16143213212563456586,
  728619405684027413378911951747468486408544313108849936415865983132302036972636995584,
  16143222008655954506,
  728619405684027413378911951747468486408544313108849936410758913933917909164966805504,
  13837361405109265226,
  728619405684027413378911951747468486408544313108849936410913618659896718742167486464,
  16143204414322950986,
  485845079705500785406036081738853071287064332459481304223070517787431311386307723264,
  11531518258490172236,
  485845079705500785406036081738853071287064332459481304223070517787431311386307723264,
  11531518258490172236,
  728619405684027413378911951747468486408544313108849936408283590956278138427454521344,
  9226229542689235916,
  728619405684027413378911951747468486408544313108849936410758866571939091662665416704,
  9226229542689760076,
  728619405684027413378911951747468486408544313108849936408283590956278138427454521344,
  9226229542689235916,
  728619405684027413378911951747468486408544313108849936410758866571939091662665416704,
  9226229542689760076,
  728619405684027413378911951747468486408544313108849936408283591103816062220111970304,
  9226238336634774476,
  728619405684027413378911951747468486408544313108849936410758866719477015455322865664,
  9226238336635298636,
  728619405684027413378911951747468486408544313108849936408283591103816062220111970304,
  9226238336634774476,
  728619405684027413378911951747468486408544313108849936410758866719477015455322865664,
  9226238336635298636,
  728619405684027413378911951747468486408544313108849936410758866719477015455322865664,
  9226238336635298636,
  728619405684027413378911951747468486408544313108849936410758866719477015455322865664,
  9226238336635298636,
  485845079705500785406036081738853071287064332459481304223070564999566925036691390464,
  13837361267703866186,
  485845079705500785406036081738853071287064332459481304223225269725545734613892071424,
  16143204276917551946,
  485845079705500785406036081738853071287064332459481304228022929471972243267160899584,
  13837378862036869706,
  485845079705500785406036081738853071287064332459481304223072378240650336796739108864,
  13837370065944371786,
  485845079705500785406036081738853071287064332459481304228177634197951052844361580544,
  16143221871250555466,
  485845079705500785406036081738853071287064332459481304223227082966629146373939789824,
  16143213075158057546,
  485845079705500785406036081738853071287064332459481304228022929176896395681846001664,
  13837378859889386186,
  485845079705500785406036081738853071287064332459481304223072377945574489211424210944,
  13837370063796888266,
  485845079705500785406036081738853071287064332459481304228177633902875205259046682624,
  16143221869103071946,
  485845079705500785406036081738853071287064332459481304223227082671553298788624891904,
  16143213073010574026,
  485845079705500785406036081738853071287064332459481304228023533787308097992071839744,
  13837378864183829066,
  485845079705500785406036081738853071287064332459481304228178238513286907569272520704,
  16143221873397514826,
  485845079705500785406036081738853071287064332459481304223070564999566925036691390464,
  13837361267703866186,
  485845079705500785406036081738853071287064332459481304223225269725545734613892071424,
  16143204276917551946,
  485845079705500785406036081738853071287064332459481304228022929471972243267160899584,
  13837378862036869706,
  485845079705500785406036081738853071287064332459481304223072378240650336796739108864,
  13837370065944371786,
  485845079705500785406036081738853071287064332459481304228177634197951052844361580544,
  16143221871250555466,
  485845079705500785406036081738853071287064332459481304223227082966629146373939789824,
  16143213075158057546,
  485845079705500785406036081738853071287064332459481304228022929176896395681846001664,
  13837378859889386186,
  485845079705500785406036081738853071287064332459481304223072377945574489211424210944,
  13837370063796888266,
  485845079705500785406036081738853071287064332459481304228177633902875205259046682624,
  16143221869103071946,
  485845079705500785406036081738853071287064332459481304223227082671553298788624891904,
  16143213073010574026,
  485845079705500785406036081738853071287064332459481304228023533787308097992071839744,
  13837378864183829066,
  485845079705500785406036081738853071287064332459481304228178238513286907569272520704,
  16143221873397514826,
  728619405684027413378911951747468486408544313108849936415711882730880202357388345344,
  13837941951542649416,
  728619405684027413378911951747468486408544313108849936415866587456859011934589026304,
  16143784960756335176,
  728619405684027413378911951747468486408544313108849936410760726889146593576740716544,
  13837933151155708616,
  728619405684027413378911951747468486408544313108849936415711278120468500047162507264,
  13837941947248206536,
  728619405684027413378911951747468486408544313108849936410915431615125403153941397504,
  16143776160369394376,
  728619405684027413378911951747468486408544313108849936415865982846447309624363188224,
  16143784956461892296,
  728619405684027413378911951747468486408544313108849936410760727184222441162055614464,
  13837933153303192136,
  728619405684027413378911951747468486408544313108849936415711278415544347632477405184,
  13837941949395690056,
  728619405684027413378911951747468486408544313108849936410915431910201250739256295424,
  16143776162516877896,
  728619405684027413378911951747468486408544313108849936415865983141523157209678086144,
  16143784958609375816,
  728619405684027413378911951747468486408544313108849936410758913943139029402007896064,
  13837924355062686536,
  728619405684027413378911951747468486408544313108849936410913618669117838979208577024,
  16143767364276372296,
  485845079705500785406036081738853071287064332459481304223070565008788045273732481024,
  13837924217657287496,
  485845079705500785406036081738853071287064332459481304223225269734766854850933161984,
  16143767226870973256,
  485845079705500785406036081738853071287064332459481304228022929481193363504201990144,
  13837941811990291016,
  485845079705500785406036081738853071287064332459481304223072378249871457033780199424,
  13837933015897793096,
  485845079705500785406036081738853071287064332459481304228177634207172173081402671104,
  16143784821203976776,
  485845079705500785406036081738853071287064332459481304223227082975850266610980880384,
  16143776025111478856,
  485845079705500785406036081738853071287064332459481304228022929186117515918887092224,
  13837941809842807496,
  485845079705500785406036081738853071287064332459481304223072377954795609448465301504,
  13837933013750309576,
  485845079705500785406036081738853071287064332459481304228177633912096325496087773184,
  16143784819056493256,
  485845079705500785406036081738853071287064332459481304223227082680774419025665982464,
  16143776022963995336,
  485845079705500785406036081738853071287064332459481304228023533796529218229112930304,
  13837941814137250376,
  485845079705500785406036081738853071287064332459481304228178238522508027806313611264,
  16143784823350936136,
  728619405684027413378911951747468486408544313108849936415866615784140380124819226624,
  16144347910709748296,
  728619405684027413378911951747468486408544313108849936415827939602645677730519056384,
  13839067851449475656,
  728619405684027413378911951747468486408544313108849936413391340020941503096950882304,
  16144339116763685576,
  728619405684027413378911951747468486408544313108849936415866615636602456332161777664,
  16144347910709224136,
  728619405684027413378911951747468486408544313108849936413352663839446800702650712064,
  13839059057503412936,
  728619405684027413378911951747468486408544313108849936415827939455107753937861607424,
  13839067851448951496,
  728619405684027413378911951747468486408544313108849936413391340168479426889608331264,
  16144339116764209736,
  728619405684027413378911951747468486408544313108849936415866615784140380124819226624,
  16144347910709748296,
  728619405684027413378911951747468486408544313108849936413352663986984724495308161024,
  13839059057503937096,
  728619405684027413378911951747468486408544313108849936415827939602645677730519056384,
  13839067851449475656,
  485845079705500785406036081738853071287064332459481304228139590668294693602243641344,
  13839067714044076616,
  485845079705500785406036081738853071287064332459481304228178266849789395996543811584,
  16144347773304349256,
  728619405684027413378911951747468486408544313108849936415711882730880202357388345344,
  13837941951542649416,
  728619405684027413378911951747468486408544313108849936415866587456859011934589026304,
  16143784960756335176,
  728619405684027413378911951747468486408544313108849936410760726889146593576740716544,
  13837933151155708616,
  728619405684027413378911951747468486408544313108849936415711278120468500047162507264,
  13837941947248206536,
  728619405684027413378911951747468486408544313108849936410915431615125403153941397504,
  16143776160369394376,
  728619405684027413378911951747468486408544313108849936415865982846447309624363188224,
  16143784956461892296,
  728619405684027413378911951747468486408544313108849936410760727184222441162055614464,
  13837933153303192136,
  728619405684027413378911951747468486408544313108849936415711278415544347632477405184,
  13837941949395690056,
  728619405684027413378911951747468486408544313108849936410915431910201250739256295424,
  16143776162516877896,
  728619405684027413378911951747468486408544313108849936415865983141523157209678086144,
  16143784958609375816,
  728619405684027413378911951747468486408544313108849936410758913943139029402007896064,
  13837924355062686536,
  728619405684027413378911951747468486408544313108849936410913618669117838979208577024,
  16143767364276372296,
  485845079705500785406036081738853071287064332459481304223070565008788045273732481024,
  13837924217657287496,
  485845079705500785406036081738853071287064332459481304223225269734766854850933161984,
  16143767226870973256,
  485845079705500785406036081738853071287064332459481304228022929481193363504201990144,
  13837941811990291016,
  485845079705500785406036081738853071287064332459481304223072378249871457033780199424,
  13837933015897793096,
  485845079705500785406036081738853071287064332459481304228177634207172173081402671104,
  16143784821203976776,
  485845079705500785406036081738853071287064332459481304223227082975850266610980880384,
  16143776025111478856,
  485845079705500785406036081738853071287064332459481304228022929186117515918887092224,
  13837941809842807496,
  485845079705500785406036081738853071287064332459481304223072377954795609448465301504,
  13837933013750309576,
  485845079705500785406036081738853071287064332459481304228177633912096325496087773184,
  16143784819056493256,
  485845079705500785406036081738853071287064332459481304223227082680774419025665982464,
  16143776022963995336,
  485845079705500785406036081738853071287064332459481304228023533796529218229112930304,
  13837941814137250376,
  485845079705500785406036081738853071287064332459481304228178238522508027806313611264,
  16143784823350936136,
  728619405684027413378911951747468486408544313108849936415866615784140380124819226624,
  16144347910709748296,
  728619405684027413378911951747468486408544313108849936415827939602645677730519056384,
  13839067851449475656,
  728619405684027413378911951747468486408544313108849936413391340020941503096950882304,
  16144339116763685576,
  728619405684027413378911951747468486408544313108849936415866615636602456332161777664,
  16144347910709224136,
  728619405684027413378911951747468486408544313108849936413352663839446800702650712064,
  13839059057503412936,
  728619405684027413378911951747468486408544313108849936415827939455107753937861607424,
  13839067851448951496,
  728619405684027413378911951747468486408544313108849936413391340168479426889608331264,
  16144339116764209736,
  728619405684027413378911951747468486408544313108849936415866615784140380124819226624,
  16144347910709748296,
  728619405684027413378911951747468486408544313108849936413352663986984724495308161024,
  13839059057503937096,
  728619405684027413378911951747468486408544313108849936415827939602645677730519056384,
  13839067851449475656,
  485845079705500785406036081738853071287064332459481304228139590668294693602243641344,
  13839067714044076616,
  485845079705500785406036081738853071287064332459481304228178266849789395996543811584,
  16144347773304349256,
  485845079705500785406036081738853071287064332459481304223070517785126031327047450624,
  9226238199229899596,
  485845079705500785406036081738853071287064332459481304223070517785126031327047450624,
  9226238199229899596,
  728619405684027413378911951747468486408544313108849936408283590958583418486714793984,
  11531509601949508556,
  728619405684027413378911951747468486408544313108849936410758866574244371721925689344,
  11531509601950032716,
  728619405684027413378911951747468486408544313108849936408283590958583418486714793984,
  11531509601949508556,
  728619405684027413378911951747468486408544313108849936410758866574244371721925689344,
  11531509601950032716,
  728619405684027413378911951747468486408544313108849936408283591106121342279372242944,
  11531518395895047116,
  728619405684027413378911951747468486408544313108849936410758866721782295514583138304,
  11531518395895571276,
  728619405684027413378911951747468486408544313108849936408283591106121342279372242944,
  11531518395895047116,
  728619405684027413378911951747468486408544313108849936410758866721782295514583138304,
  11531518395895571276,
  728619405684027413378911951747468486408544313108849936410758866721782295514583138304,
  11531518395895571276,
  728619405684027413378911951747468486408544313108849936410758866721782295514583138304,
  11531518395895571276,
  728619405684027413378911951747468486408544313108849936415711882721659082120347254784,
  13837379001589228106,
  728619405684027413378911951747468486408544313108849936415866587447637891697547935744,
  16143222010802913866,
  728619405684027413378911951747468486408544313108849936410760726879925473339699625984,
  13837370201202287306,
  728619405684027413378911951747468486408544313108849936415711278111247379810121416704,
  13837378997294785226,
  728619405684027413378911951747468486408544313108849936410915431605904282916900306944,
  16143213210415973066,
  728619405684027413378911951747468486408544313108849936415865982837226189387322097664,
  16143222006508470986,
  728619405684027413378911951747468486408544313108849936410760727175001320925014523904,
  13837370203349770826,
  728619405684027413378911951747468486408544313108849936415711278406323227395436314624,
  13837378999442268746,
  728619405684027413378911951747468486408544313108849936410915431900980130502215204864,
  16143213212563456586,
  728619405684027413378911951747468486408544313108849936415865983132302036972636995584,
  16143222008655954506,
  728619405684027413378911951747468486408544313108849936410758913933917909164966805504,
  13837361405109265226,
  728619405684027413378911951747468486408544313108849936410913618659896718742167486464,
  16143204414322950986,
  728619405684027413378911951747468486408544313108849936415711882721659082120347254784,
  13837379001589228106,
  728619405684027413378911951747468486408544313108849936415866587447637891697547935744,
  16143222010802913866,
  728619405684027413378911951747468486408544313108849936410760726879925473339699625984,
  13837370201202287306,
  728619405684027413378911951747468486408544313108849936415711278111247379810121416704,
  13837378997294785226,
  728619405684027413378911951747468486408544313108849936410915431605904282916900306944,
  16143213210415973066,
  728619405684027413378911951747468486408544313108849936415865982837226189387322097664,
  16143222006508470986,
  728619405684027413378911951747468486408544313108849936410760727175001320925014523904,
  13837370203349770826,
  728619405684027413378911951747468486408544313108849936415711278406323227395436314624,
  13837378999442268746,
  728619405684027413378911951747468486408544313108849936410915431900980130502215204864,
  16143213212563456586,
  728619405684027413378911951747468486408544313108849936415865983132302036972636995584,
  16143222008655954506,
  728619405684027413378911951747468486408544313108849936410758913933917909164966805504,
  13837361405109265226,
  728619405684027413378911951747468486408544313108849936410913618659896718742167486464,
  16143204414322950986,
  485845079705500785406036081738853071287064332459481304223070517787431311386307723264,
  11531518258490172236,
  485845079705500785406036081738853071287064332459481304223070517787431311386307723264,
  11531518258490172236,
  728619405684027413378911951747468486408544313108849936408283590956278138427454521344,
  9226229542689235916,
  728619405684027413378911951747468486408544313108849936410758866571939091662665416704,
  9226229542689760076,
  728619405684027413378911951747468486408544313108849936408283590956278138427454521344,
  9226229542689235916,
  728619405684027413378911951747468486408544313108849936410758866571939091662665416704,
  9226229542689760076,
  728619405684027413378911951747468486408544313108849936408283591103816062220111970304,
  9226238336634774476,
  728619405684027413378911951747468486408544313108849936410758866719477015455322865664,
  9226238336635298636,
  728619405684027413378911951747468486408544313108849936408283591103816062220111970304,
  9226238336634774476,
  728619405684027413378911951747468486408544313108849936410758866719477015455322865664,
  9226238336635298636,
  728619405684027413378911951747468486408544313108849936410758866719477015455322865664,
  9226238336635298636,
  728619405684027413378911951747468486408544313108849936410758866719477015455322865664,
  9226238336635298636,
  485845079705500785406036081738853071287064332459481304223070564999566925036691390464,
  13837361267703866186,
  485845079705500785406036081738853071287064332459481304223225269725545734613892071424,
  16143204276917551946,
  485845079705500785406036081738853071287064332459481304228022929471972243267160899584,
  13837378862036869706,
  485845079705500785406036081738853071287064332459481304223072378240650336796739108864,
  13837370065944371786,
  485845079705500785406036081738853071287064332459481304228177634197951052844361580544,
  16143221871250555466,
  485845079705500785406036081738853071287064332459481304223227082966629146373939789824,
  16143213075158057546,
  485845079705500785406036081738853071287064332459481304228022929176896395681846001664,
  13837378859889386186,
  485845079705500785406036081738853071287064332459481304223072377945574489211424210944,
  13837370063796888266]
def pertQf_mat_cert_1 : List Nat := [485845079705500785406036081738853071287064332459481304228177633902875205259046682624,
  16143221869103071946,
  485845079705500785406036081738853071287064332459481304223227082671553298788624891904,
  16143213073010574026,
  485845079705500785406036081738853071287064332459481304228023533787308097992071839744,
  13837378864183829066,
  485845079705500785406036081738853071287064332459481304228178238513286907569272520704,
  16143221873397514826,
  485845079705500785406036081738853071287064332459481304223070564999566925036691390464,
  13837361267703866186,
  485845079705500785406036081738853071287064332459481304223225269725545734613892071424,
  16143204276917551946,
  485845079705500785406036081738853071287064332459481304228022929471972243267160899584,
  13837378862036869706,
  485845079705500785406036081738853071287064332459481304223072378240650336796739108864,
  13837370065944371786,
  485845079705500785406036081738853071287064332459481304228177634197951052844361580544,
  16143221871250555466,
  485845079705500785406036081738853071287064332459481304223227082966629146373939789824,
  16143213075158057546,
  485845079705500785406036081738853071287064332459481304228022929176896395681846001664,
  13837378859889386186,
  485845079705500785406036081738853071287064332459481304223072377945574489211424210944,
  13837370063796888266,
  485845079705500785406036081738853071287064332459481304228177633902875205259046682624,
  16143221869103071946,
  485845079705500785406036081738853071287064332459481304223227082671553298788624891904,
  16143213073010574026,
  485845079705500785406036081738853071287064332459481304228023533787308097992071839744,
  13837378864183829066,
  485845079705500785406036081738853071287064332459481304228178238513286907569272520704,
  16143221873397514826,
  728619405684027413378911951747468486408544313108849936415711882730880202357388345344,
  13837941951542649416,
  728619405684027413378911951747468486408544313108849936415866587456859011934589026304,
  16143784960756335176,
  728619405684027413378911951747468486408544313108849936410760726889146593576740716544,
  13837933151155708616,
  728619405684027413378911951747468486408544313108849936415711278120468500047162507264,
  13837941947248206536,
  728619405684027413378911951747468486408544313108849936410915431615125403153941397504,
  16143776160369394376,
  728619405684027413378911951747468486408544313108849936415865982846447309624363188224,
  16143784956461892296,
  728619405684027413378911951747468486408544313108849936410760727184222441162055614464,
  13837933153303192136,
  728619405684027413378911951747468486408544313108849936415711278415544347632477405184,
  13837941949395690056,
  728619405684027413378911951747468486408544313108849936410915431910201250739256295424,
  16143776162516877896,
  728619405684027413378911951747468486408544313108849936415865983141523157209678086144,
  16143784958609375816,
  728619405684027413378911951747468486408544313108849936410758913943139029402007896064,
  13837924355062686536,
  728619405684027413378911951747468486408544313108849936410913618669117838979208577024,
  16143767364276372296,
  485845079705500785406036081738853071287064332459481304223070565008788045273732481024,
  13837924217657287496,
  485845079705500785406036081738853071287064332459481304223225269734766854850933161984,
  16143767226870973256,
  485845079705500785406036081738853071287064332459481304228022929481193363504201990144,
  13837941811990291016,
  485845079705500785406036081738853071287064332459481304223072378249871457033780199424,
  13837933015897793096,
  485845079705500785406036081738853071287064332459481304228177634207172173081402671104,
  16143784821203976776,
  485845079705500785406036081738853071287064332459481304223227082975850266610980880384,
  16143776025111478856,
  485845079705500785406036081738853071287064332459481304228022929186117515918887092224,
  13837941809842807496,
  485845079705500785406036081738853071287064332459481304223072377954795609448465301504,
  13837933013750309576,
  485845079705500785406036081738853071287064332459481304228177633912096325496087773184,
  16143784819056493256,
  485845079705500785406036081738853071287064332459481304223227082680774419025665982464,
  16143776022963995336,
  485845079705500785406036081738853071287064332459481304228023533796529218229112930304,
  13837941814137250376,
  485845079705500785406036081738853071287064332459481304228178238522508027806313611264,
  16143784823350936136,
  728619405684027413378911951747468486408544313108849936415866615784140380124819226624,
  16144347910709748296,
  728619405684027413378911951747468486408544313108849936415827939602645677730519056384,
  13839067851449475656,
  728619405684027413378911951747468486408544313108849936413391340020941503096950882304,
  16144339116763685576,
  728619405684027413378911951747468486408544313108849936415866615636602456332161777664,
  16144347910709224136,
  728619405684027413378911951747468486408544313108849936413352663839446800702650712064,
  13839059057503412936,
  728619405684027413378911951747468486408544313108849936415827939455107753937861607424,
  13839067851448951496,
  728619405684027413378911951747468486408544313108849936413391340168479426889608331264,
  16144339116764209736,
  728619405684027413378911951747468486408544313108849936415866615784140380124819226624,
  16144347910709748296,
  728619405684027413378911951747468486408544313108849936413352663986984724495308161024,
  13839059057503937096,
  728619405684027413378911951747468486408544313108849936415827939602645677730519056384,
  13839067851449475656,
  485845079705500785406036081738853071287064332459481304228139590668294693602243641344,
  13839067714044076616,
  485845079705500785406036081738853071287064332459481304228178266849789395996543811584,
  16144347773304349256,
  728619405684027413378911951747468486408544313108849936415711882730880202357388345344,
  13837941951542649416,
  728619405684027413378911951747468486408544313108849936415866587456859011934589026304,
  16143784960756335176,
  728619405684027413378911951747468486408544313108849936410760726889146593576740716544,
  13837933151155708616,
  728619405684027413378911951747468486408544313108849936415711278120468500047162507264,
  13837941947248206536,
  728619405684027413378911951747468486408544313108849936410915431615125403153941397504,
  16143776160369394376,
  728619405684027413378911951747468486408544313108849936415865982846447309624363188224,
  16143784956461892296,
  728619405684027413378911951747468486408544313108849936410760727184222441162055614464,
  13837933153303192136,
  728619405684027413378911951747468486408544313108849936415711278415544347632477405184,
  13837941949395690056,
  728619405684027413378911951747468486408544313108849936410915431910201250739256295424,
  16143776162516877896,
  728619405684027413378911951747468486408544313108849936415865983141523157209678086144,
  16143784958609375816,
  728619405684027413378911951747468486408544313108849936410758913943139029402007896064,
  13837924355062686536,
  728619405684027413378911951747468486408544313108849936410913618669117838979208577024,
  16143767364276372296,
  485845079705500785406036081738853071287064332459481304223070565008788045273732481024,
  13837924217657287496,
  485845079705500785406036081738853071287064332459481304223225269734766854850933161984,
  16143767226870973256,
  485845079705500785406036081738853071287064332459481304228022929481193363504201990144,
  13837941811990291016,
  485845079705500785406036081738853071287064332459481304223072378249871457033780199424,
  13837933015897793096,
  485845079705500785406036081738853071287064332459481304228177634207172173081402671104,
  16143784821203976776,
  485845079705500785406036081738853071287064332459481304223227082975850266610980880384,
  16143776025111478856,
  485845079705500785406036081738853071287064332459481304228022929186117515918887092224,
  13837941809842807496,
  485845079705500785406036081738853071287064332459481304223072377954795609448465301504,
  13837933013750309576,
  485845079705500785406036081738853071287064332459481304228177633912096325496087773184,
  16143784819056493256,
  485845079705500785406036081738853071287064332459481304223227082680774419025665982464,
  16143776022963995336,
  485845079705500785406036081738853071287064332459481304228023533796529218229112930304,
  13837941814137250376,
  485845079705500785406036081738853071287064332459481304228178238522508027806313611264,
  16143784823350936136,
  728619405684027413378911951747468486408544313108849936415866615784140380124819226624,
  16144347910709748296,
  728619405684027413378911951747468486408544313108849936415827939602645677730519056384,
  13839067851449475656,
  728619405684027413378911951747468486408544313108849936413391340020941503096950882304,
  16144339116763685576,
  728619405684027413378911951747468486408544313108849936415866615636602456332161777664,
  16144347910709224136,
  728619405684027413378911951747468486408544313108849936413352663839446800702650712064,
  13839059057503412936,
  728619405684027413378911951747468486408544313108849936415827939455107753937861607424,
  13839067851448951496,
  728619405684027413378911951747468486408544313108849936413391340168479426889608331264,
  16144339116764209736,
  728619405684027413378911951747468486408544313108849936415866615784140380124819226624,
  16144347910709748296,
  728619405684027413378911951747468486408544313108849936413352663986984724495308161024,
  13839059057503937096,
  728619405684027413378911951747468486408544313108849936415827939602645677730519056384,
  13839067851449475656,
  485845079705500785406036081738853071287064332459481304228139590668294693602243641344,
  13839067714044076616,
  485845079705500785406036081738853071287064332459481304228178266849789395996543811584,
  16144347773304349256,
  391110907456280614113231078066657475266206379792680634354287774246068882594727197420101304320,
  200450467204875214,
  391110907456280614113231078066657475266206379792680634354287774251019433826049103890523095040,
  200450469352358734,
  391110907456280614113231078066657475266206379792680634354287774246146234957716602208701644800,
  200450467238429644,
  391110907456280614113231078066657475266206379792680634354287774251096786189038508679123435520,
  200450469385913164,
  391110907456280614113231078066657475266206379792680634354287774253496522830331392678439157760,
  200476855483941454,
  391110907456280614113231078066657475266206379792680634354287774251021247214670439443228262400,
  200468061538402894,
  391110907456280614113231078066657475266206379792680634354287774253573875193320797467039498240,
  200476855517495884,
  391110907456280614113231078066657475266206379792680634354287774251098599577659844231828602880,
  200468061571957324,
  391110907456280614113231078066657475266206379792680634354287774251019433826049103890523095040,
  200450469352358734,
  391110907456280614113231078066657475266206379792680634354287774246068882594727197420101304320,
  200450467204875214,
  391110907456280614113231078066657475266206379792680634354287774251096786189038508679123435520,
  200450469385913164,
  391110907456280614113231078066657475266206379792680634354287774246146234957716602208701644800,
  200450467238429644,
  391110907456280614113231078066657475266206379792680634354287774253496522240179697507809361920,
  164448058464977614,
  391110907456280614113231078066657475266206379792680634354287774251021246624518744272598466560,
  164439264519439054,
  391110907456280614113231078066657475266206379792680634354287774253573874603169102296409702400,
  164448058498532044,
  391110907456280614113231078066657475266206379792680634354287774251098598987508149061198807040,
  164439264552993484,
  391110907456280614113231078066657475266206379792680634354287774253496522240179697507809361920,
  164448058464977614,
  391110907456280614113231078066657475266206379792680634354287774253573874603169102296409702400,
  164448058498532044,
  391110907456280614113231078066657475266206379792680634354287774251019433678511180097865646080,
  164430468426416974,
  391110907456280614113231078066657475266206379792680634354287774246068882447189273627443855360,
  164430466278933454,
  391110907456280614113231078066657475266206379792680634354287774251096786041500584886465986560,
  164430468459971404,
  391110907456280614113231078066657475266206379792680634354287774246146234810178678416044195840,
  164430466312487884,
  391110907456280614113231078066657475266206379792680634354287774253496522830331392678439157760,
  200476855483941454,
  391110907456280614113231078066657475266206379792680634354287774253573875193320797467039498240,
  200476855517495884,
  391110907456280614113231078066657475266206379792680634354287774246224843315661814008685527040,
  238177043254002634,
  391110907456280614113231078066657475266206379792680634354287774256125945778305626949529108480,
  274205840272966474,
  391110907456280614113231078066657475266206379792680634354287774256127759019389038709576826880,
  274214638513472074,
  391110907456280614113231078066657475266206379792680634354287774253652483403728085474365931520,
  238194637587530314,
  391110907456280614113231078066657475266206379792680634354287774256125945778305626949529108480,
  274205840272966474,
  391110907456280614113231078066657475266206379792680634354287774246224843315661814008685527040,
  238177043254002634,
  391110907456280614113231078066657475266206379792680634354287774256127758724313191124261928960,
  274214636365988554,
  391110907456280614113231078066657475266206379792680634354287774253652483108652237889051033600,
  238194635440046794,
  391110907456280614113231078066657475266206379792680634354287774256127758724313191124261928960,
  274214636365988554,
  391110907456280614113231078066657475266206379792680634354287774256125945630767703156871659520,
  274197046327427914,
  391110907456280614113231078066657475266206379792680634354287774246224843168123890216028078080,
  238168249308464074,
  391110907456280614113231078066657475266206379792680634354287774256127759019389038709576826880,
  274214638513472074,
  391110907456280614113231078066657475266206379792680634354287774246068882597032477479361576960,
  201013279719343054,
  391110907456280614113231078066657475266206379792680634354287774251019433828354383949783367680,
  201013281866826574,
  391110907456280614113231078066657475266206379792680634354287774246146234960021882267961917440,
  201013279752897484,
  391110907456280614113231078066657475266206379792680634354287774251096786191343788738383708160,
  201013281900381004,
  391110907456280614113231078066657475266206379792680634354287774253496522832636672737699430400,
  201039667998409294,
  391110907456280614113231078066657475266206379792680634354287774251021247216975719502488535040,
  201030874052870734,
  391110907456280614113231078066657475266206379792680634354287774253573875195626077526299770880,
  201039668031963724,
  391110907456280614113231078066657475266206379792680634354287774251098599579965124291088875520,
  201030874086425164,
  391110907456280614113231078066657475266206379792680634354287774251019433828354383949783367680,
  201013281866826574,
  391110907456280614113231078066657475266206379792680634354287774246068882597032477479361576960,
  201013279719343054,
  391110907456280614113231078066657475266206379792680634354287774251096786191343788738383708160,
  201013281900381004,
  391110907456280614113231078066657475266206379792680634354287774246146234960021882267961917440,
  201013279752897484,
  391110907456280614113231078066657475266206379792680634354287774253496522242484977567069634560,
  165010870979445454,
  391110907456280614113231078066657475266206379792680634354287774251021246626824024331858739200,
  165002077033906894,
  391110907456280614113231078066657475266206379792680634354287774253573874605474382355669975040,
  165010871012999884,
  391110907456280614113231078066657475266206379792680634354287774251098598989813429120459079680,
  165002077067461324,
  391110907456280614113231078066657475266206379792680634354287774253496522242484977567069634560,
  165010870979445454,
  391110907456280614113231078066657475266206379792680634354287774253573874605474382355669975040,
  165010871012999884,
  391110907456280614113231078066657475266206379792680634354287774251019433680816460157125918720,
  164993280940884814,
  391110907456280614113231078066657475266206379792680634354287774246068882449494553686704128000,
  164993278793401294,
  391110907456280614113231078066657475266206379792680634354287774251096786043805864945726259200,
  164993280974439244,
  391110907456280614113231078066657475266206379792680634354287774246146234812483958475304468480,
  164993278826955724,
  391110907456280614113231078066657475266206379792680634354287774253496522832636672737699430400,
  201039667998409294,
  391110907456280614113231078066657475266206379792680634354287774253573875195626077526299770880,
  201039668031963724,
  391110907456280614113231078066657475266206379792680634354287774246068882597032477479361576960,
  201013279719343054,
  391110907456280614113231078066657475266206379792680634354287774251019433828354383949783367680,
  201013281866826574,
  391110907456280614113231078066657475266206379792680634354287774246146234960021882267961917440,
  201013279752897484,
  391110907456280614113231078066657475266206379792680634354287774251096786191343788738383708160,
  201013281900381004,
  391110907456280614113231078066657475266206379792680634354287774253496522832636672737699430400,
  201039667998409294,
  391110907456280614113231078066657475266206379792680634354287774251021247216975719502488535040,
  201030874052870734,
  391110907456280614113231078066657475266206379792680634354287774253573875195626077526299770880,
  201039668031963724,
  391110907456280614113231078066657475266206379792680634354287774251098599579965124291088875520,
  201030874086425164,
  391110907456280614113231078066657475266206379792680634354287774251019433828354383949783367680,
  201013281866826574,
  391110907456280614113231078066657475266206379792680634354287774246068882597032477479361576960,
  201013279719343054,
  391110907456280614113231078066657475266206379792680634354287774251096786191343788738383708160,
  201013281900381004,
  391110907456280614113231078066657475266206379792680634354287774246146234960021882267961917440,
  201013279752897484,
  391110907456280614113231078066657475266206379792680634354287774253496522242484977567069634560,
  165010870979445454,
  391110907456280614113231078066657475266206379792680634354287774251021246626824024331858739200,
  165002077033906894,
  391110907456280614113231078066657475266206379792680634354287774253573874605474382355669975040,
  165010871012999884,
  391110907456280614113231078066657475266206379792680634354287774251098598989813429120459079680,
  165002077067461324,
  391110907456280614113231078066657475266206379792680634354287774253496522242484977567069634560,
  165010870979445454,
  391110907456280614113231078066657475266206379792680634354287774253573874605474382355669975040,
  165010871012999884,
  391110907456280614113231078066657475266206379792680634354287774251019433680816460157125918720,
  164993280940884814,
  391110907456280614113231078066657475266206379792680634354287774246068882449494553686704128000,
  164993278793401294,
  391110907456280614113231078066657475266206379792680634354287774251096786043805864945726259200,
  164993280974439244,
  391110907456280614113231078066657475266206379792680634354287774246146234812483958475304468480,
  164993278826955724,
  391110907456280614113231078066657475266206379792680634354287774253496522832636672737699430400,
  201039667998409294,
  391110907456280614113231078066657475266206379792680634354287774253573875195626077526299770880,
  201039668031963724,
  391110907456280614113231078066657475266206379792680634354287774246186167134167111614385356800,
  237614230739534794,
  391110907456280614113231078066657475266206379792680634354287774256087269596810924555228938240,
  273643027758498634,
  391110907456280614113231078066657475266206379792680634354287774246224843315661814008685527040,
  238177043254002634,
  391110907456280614113231078066657475266206379792680634354287774256125945778305626949529108480,
  274205840272966474,
  391110907456280614113231078066657475266206379792680634354287774256089082837894336315276656640,
  273651825999004234,
  391110907456280614113231078066657475266206379792680634354287774253613807222233383080065761280,
  237631825073062474,
  391110907456280614113231078066657475266206379792680634354287774256127759019389038709576826880,
  274214638513472074,
  391110907456280614113231078066657475266206379792680634354287774253652483403728085474365931520,
  238194637587530314,
  391110907456280614113231078066657475266206379792680634354287774256087269596810924555228938240,
  273643027758498634,
  391110907456280614113231078066657475266206379792680634354287774246186167134167111614385356800,
  237614230739534794,
  391110907456280614113231078066657475266206379792680634354287774256125945778305626949529108480,
  274205840272966474,
  391110907456280614113231078066657475266206379792680634354287774246224843315661814008685527040,
  238177043254002634,
  391110907456280614113231078066657475266206379792680634354287774256089082542818488729961758720,
  273651823851520714,
  391110907456280614113231078066657475266206379792680634354287774253613806927157535494750863360,
  237631822925578954,
  391110907456280614113231078066657475266206379792680634354287774256127758724313191124261928960,
  274214636365988554,
  391110907456280614113231078066657475266206379792680634354287774253652483108652237889051033600,
  238194635440046794,
  391110907456280614113231078066657475266206379792680634354287774256089082542818488729961758720,
  273651823851520714,
  391110907456280614113231078066657475266206379792680634354287774256127758724313191124261928960,
  274214636365988554,
  391110907456280614113231078066657475266206379792680634354287774256087269449273000762571489280,
  273634233812960074,
  391110907456280614113231078066657475266206379792680634354287774246186166986629187821727907840,
  237605436793996234,
  391110907456280614113231078066657475266206379792680634354287774256125945630767703156871659520,
  274197046327427914,
  391110907456280614113231078066657475266206379792680634354287774246224843168123890216028078080,
  238168249308464074,
  391110907456280614113231078066657475266206379792680634354287774256089082837894336315276656640,
  273651825999004234,
  391110907456280614113231078066657475266206379792680634354287774256127759019389038709576826880,
  274214638513472074,
  391110907456280614113231078066657475266206379792680634354287774246224843320272374127206072320,
  238177043287557064,
  391110907456280614113231078066657475266206379792680634354287774256125945782916187068049653760,
  274205840306520904,
  391110907456280614113231078066657475266206379792680634354287774256127759023999598828097372160,
  274214638547026504,
  391110907456280614113231078066657475266206379792680634354287774253652483408338645592886476800,
  238194637621084744]
def pertQf_mat_cert_2 : List Nat := [391110907456280614113231078066657475266206379792680634354287774256125945782916187068049653760,
  274205840306520904,
  391110907456280614113231078066657475266206379792680634354287774246224843320272374127206072320,
  238177043287557064,
  391110907456280614113231078066657475266206379792680634354287774256127758728923751242782474240,
  274214636399542984,
  391110907456280614113231078066657475266206379792680634354287774253652483113262798007571578880,
  238194635473601224,
  391110907456280614113231078066657475266206379792680634354287774256127758728923751242782474240,
  274214636399542984,
  391110907456280614113231078066657475266206379792680634354287774256125945635378263275392204800,
  274197046360982344,
  391110907456280614113231078066657475266206379792680634354287774246224843172734450334548623360,
  238168249342018504,
  391110907456280614113231078066657475266206379792680634354287774256127759023999598828097372160,
  274214638547026504,
  391110907456280614113231078066657475266206379792680634354287774246186167138777671732905902080,
  237614230773089224,
  391110907456280614113231078066657475266206379792680634354287774256087269601421484673749483520,
  273643027792053064,
  391110907456280614113231078066657475266206379792680634354287774246224843320272374127206072320,
  238177043287557064,
  391110907456280614113231078066657475266206379792680634354287774256125945782916187068049653760,
  274205840306520904,
  391110907456280614113231078066657475266206379792680634354287774256089082842504896433797201920,
  273651826032558664,
  391110907456280614113231078066657475266206379792680634354287774253613807226843943198586306560,
  237631825106616904,
  391110907456280614113231078066657475266206379792680634354287774256127759023999598828097372160,
  274214638547026504,
  391110907456280614113231078066657475266206379792680634354287774253652483408338645592886476800,
  238194637621084744,
  391110907456280614113231078066657475266206379792680634354287774256087269601421484673749483520,
  273643027792053064,
  391110907456280614113231078066657475266206379792680634354287774246186167138777671732905902080,
  237614230773089224,
  391110907456280614113231078066657475266206379792680634354287774256125945782916187068049653760,
  274205840306520904,
  391110907456280614113231078066657475266206379792680634354287774246224843320272374127206072320,
  238177043287557064,
  391110907456280614113231078066657475266206379792680634354287774256089082547429048848482304000,
  273651823885075144,
  391110907456280614113231078066657475266206379792680634354287774253613806931768095613271408640,
  237631822959133384,
  391110907456280614113231078066657475266206379792680634354287774256127758728923751242782474240,
  274214636399542984,
  391110907456280614113231078066657475266206379792680634354287774253652483113262798007571578880,
  238194635473601224,
  391110907456280614113231078066657475266206379792680634354287774256089082547429048848482304000,
  273651823885075144,
  391110907456280614113231078066657475266206379792680634354287774256127758728923751242782474240,
  274214636399542984,
  391110907456280614113231078066657475266206379792680634354287774256087269453883560881092034560,
  273634233846514504,
  391110907456280614113231078066657475266206379792680634354287774246186166991239747940248453120,
  237605436827550664,
  391110907456280614113231078066657475266206379792680634354287774256125945635378263275392204800,
  274197046360982344,
  391110907456280614113231078066657475266206379792680634354287774246224843172734450334548623360,
  238168249342018504,
  391110907456280614113231078066657475266206379792680634354287774256089082842504896433797201920,
  273651826032558664,
  391110907456280614113231078066657475266206379792680634354287774256127759023999598828097372160,
  274214638547026504,
  391110907456280614113231078066657475266206379792680634354287774246068882594727197420101304320,
  200450467204875214,
  391110907456280614113231078066657475266206379792680634354287774251019433826049103890523095040,
  200450469352358734,
  391110907456280614113231078066657475266206379792680634354287774246146234957716602208701644800,
  200450467238429644,
  391110907456280614113231078066657475266206379792680634354287774251096786189038508679123435520,
  200450469385913164,
  391110907456280614113231078066657475266206379792680634354287774253496522830331392678439157760,
  200476855483941454,
  391110907456280614113231078066657475266206379792680634354287774251021247214670439443228262400,
  200468061538402894,
  391110907456280614113231078066657475266206379792680634354287774253573875193320797467039498240,
  200476855517495884,
  391110907456280614113231078066657475266206379792680634354287774251098599577659844231828602880,
  200468061571957324,
  391110907456280614113231078066657475266206379792680634354287774251019433826049103890523095040,
  200450469352358734,
  391110907456280614113231078066657475266206379792680634354287774246068882594727197420101304320,
  200450467204875214,
  391110907456280614113231078066657475266206379792680634354287774251096786189038508679123435520,
  200450469385913164,
  391110907456280614113231078066657475266206379792680634354287774246146234957716602208701644800,
  200450467238429644,
  391110907456280614113231078066657475266206379792680634354287774253496522240179697507809361920,
  164448058464977614,
  391110907456280614113231078066657475266206379792680634354287774251021246624518744272598466560,
  164439264519439054,
  391110907456280614113231078066657475266206379792680634354287774253573874603169102296409702400,
  164448058498532044,
  391110907456280614113231078066657475266206379792680634354287774251098598987508149061198807040,
  164439264552993484,
  391110907456280614113231078066657475266206379792680634354287774253496522240179697507809361920,
  164448058464977614,
  391110907456280614113231078066657475266206379792680634354287774253573874603169102296409702400,
  164448058498532044,
  391110907456280614113231078066657475266206379792680634354287774251019433678511180097865646080,
  164430468426416974,
  391110907456280614113231078066657475266206379792680634354287774246068882447189273627443855360,
  164430466278933454,
  391110907456280614113231078066657475266206379792680634354287774251096786041500584886465986560,
  164430468459971404,
  391110907456280614113231078066657475266206379792680634354287774246146234810178678416044195840,
  164430466312487884,
  391110907456280614113231078066657475266206379792680634354287774253496522830331392678439157760,
  200476855483941454,
  391110907456280614113231078066657475266206379792680634354287774253573875193320797467039498240,
  200476855517495884,
  391110907456280614113231078066657475266206379792680634354287774246224843315661814008685527040,
  238177043254002634,
  391110907456280614113231078066657475266206379792680634354287774256125945778305626949529108480,
  274205840272966474,
  391110907456280614113231078066657475266206379792680634354287774256127759019389038709576826880,
  274214638513472074,
  391110907456280614113231078066657475266206379792680634354287774253652483403728085474365931520,
  238194637587530314,
  391110907456280614113231078066657475266206379792680634354287774256125945778305626949529108480,
  274205840272966474,
  391110907456280614113231078066657475266206379792680634354287774246224843315661814008685527040,
  238177043254002634,
  391110907456280614113231078066657475266206379792680634354287774256127758724313191124261928960,
  274214636365988554,
  391110907456280614113231078066657475266206379792680634354287774253652483108652237889051033600,
  238194635440046794,
  391110907456280614113231078066657475266206379792680634354287774256127758724313191124261928960,
  274214636365988554,
  391110907456280614113231078066657475266206379792680634354287774256125945630767703156871659520,
  274197046327427914,
  391110907456280614113231078066657475266206379792680634354287774246224843168123890216028078080,
  238168249308464074,
  391110907456280614113231078066657475266206379792680634354287774256127759019389038709576826880,
  274214638513472074,
  391110907456280614113231078066657475266206379792680634354287774246068882597032477479361576960,
  201013279719343054,
  391110907456280614113231078066657475266206379792680634354287774251019433828354383949783367680,
  201013281866826574,
  391110907456280614113231078066657475266206379792680634354287774246146234960021882267961917440,
  201013279752897484,
  391110907456280614113231078066657475266206379792680634354287774251096786191343788738383708160,
  201013281900381004,
  391110907456280614113231078066657475266206379792680634354287774253496522832636672737699430400,
  201039667998409294,
  391110907456280614113231078066657475266206379792680634354287774251021247216975719502488535040,
  201030874052870734,
  391110907456280614113231078066657475266206379792680634354287774253573875195626077526299770880,
  201039668031963724,
  391110907456280614113231078066657475266206379792680634354287774251098599579965124291088875520,
  201030874086425164,
  391110907456280614113231078066657475266206379792680634354287774251019433828354383949783367680,
  201013281866826574,
  391110907456280614113231078066657475266206379792680634354287774246068882597032477479361576960,
  201013279719343054,
  391110907456280614113231078066657475266206379792680634354287774251096786191343788738383708160,
  201013281900381004,
  391110907456280614113231078066657475266206379792680634354287774246146234960021882267961917440,
  201013279752897484,
  391110907456280614113231078066657475266206379792680634354287774253496522242484977567069634560,
  165010870979445454,
  391110907456280614113231078066657475266206379792680634354287774251021246626824024331858739200,
  165002077033906894,
  391110907456280614113231078066657475266206379792680634354287774253573874605474382355669975040,
  165010871012999884,
  391110907456280614113231078066657475266206379792680634354287774251098598989813429120459079680,
  165002077067461324,
  391110907456280614113231078066657475266206379792680634354287774253496522242484977567069634560,
  165010870979445454,
  391110907456280614113231078066657475266206379792680634354287774253573874605474382355669975040,
  165010871012999884,
  391110907456280614113231078066657475266206379792680634354287774251019433680816460157125918720,
  164993280940884814,
  391110907456280614113231078066657475266206379792680634354287774246068882449494553686704128000,
  164993278793401294,
  391110907456280614113231078066657475266206379792680634354287774251096786043805864945726259200,
  164993280974439244,
  391110907456280614113231078066657475266206379792680634354287774246146234812483958475304468480,
  164993278826955724,
  391110907456280614113231078066657475266206379792680634354287774253496522832636672737699430400,
  201039667998409294,
  391110907456280614113231078066657475266206379792680634354287774253573875195626077526299770880,
  201039668031963724,
  391110907456280614113231078066657475266206379792680634354287774246068882597032477479361576960,
  201013279719343054,
  391110907456280614113231078066657475266206379792680634354287774251019433828354383949783367680,
  201013281866826574,
  391110907456280614113231078066657475266206379792680634354287774246146234960021882267961917440,
  201013279752897484,
  391110907456280614113231078066657475266206379792680634354287774251096786191343788738383708160,
  201013281900381004,
  391110907456280614113231078066657475266206379792680634354287774253496522832636672737699430400,
  201039667998409294,
  391110907456280614113231078066657475266206379792680634354287774251021247216975719502488535040,
  201030874052870734,
  391110907456280614113231078066657475266206379792680634354287774253573875195626077526299770880,
  201039668031963724,
  391110907456280614113231078066657475266206379792680634354287774251098599579965124291088875520,
  201030874086425164,
  391110907456280614113231078066657475266206379792680634354287774251019433828354383949783367680,
  201013281866826574,
  391110907456280614113231078066657475266206379792680634354287774246068882597032477479361576960,
  201013279719343054,
  391110907456280614113231078066657475266206379792680634354287774251096786191343788738383708160,
  201013281900381004,
  391110907456280614113231078066657475266206379792680634354287774246146234960021882267961917440,
  201013279752897484,
  391110907456280614113231078066657475266206379792680634354287774253496522242484977567069634560,
  165010870979445454,
  391110907456280614113231078066657475266206379792680634354287774251021246626824024331858739200,
  165002077033906894,
  391110907456280614113231078066657475266206379792680634354287774253573874605474382355669975040,
  165010871012999884,
  391110907456280614113231078066657475266206379792680634354287774251098598989813429120459079680,
  165002077067461324,
  391110907456280614113231078066657475266206379792680634354287774253496522242484977567069634560,
  165010870979445454,
  391110907456280614113231078066657475266206379792680634354287774253573874605474382355669975040,
  165010871012999884,
  391110907456280614113231078066657475266206379792680634354287774251019433680816460157125918720,
  164993280940884814,
  391110907456280614113231078066657475266206379792680634354287774246068882449494553686704128000,
  164993278793401294,
  391110907456280614113231078066657475266206379792680634354287774251096786043805864945726259200,
  164993280974439244,
  391110907456280614113231078066657475266206379792680634354287774246146234812483958475304468480,
  164993278826955724,
  391110907456280614113231078066657475266206379792680634354287774253496522832636672737699430400,
  201039667998409294,
  391110907456280614113231078066657475266206379792680634354287774253573875195626077526299770880,
  201039668031963724,
  391110907456280614113231078066657475266206379792680634354287774246186167134167111614385356800,
  237614230739534794,
  391110907456280614113231078066657475266206379792680634354287774256087269596810924555228938240,
  273643027758498634,
  391110907456280614113231078066657475266206379792680634354287774246224843315661814008685527040,
  238177043254002634,
  391110907456280614113231078066657475266206379792680634354287774256125945778305626949529108480,
  274205840272966474,
  391110907456280614113231078066657475266206379792680634354287774256089082837894336315276656640,
  273651825999004234,
  391110907456280614113231078066657475266206379792680634354287774253613807222233383080065761280,
  237631825073062474,
  391110907456280614113231078066657475266206379792680634354287774256127759019389038709576826880,
  274214638513472074,
  391110907456280614113231078066657475266206379792680634354287774253652483403728085474365931520,
  238194637587530314,
  391110907456280614113231078066657475266206379792680634354287774256087269596810924555228938240,
  273643027758498634,
  391110907456280614113231078066657475266206379792680634354287774246186167134167111614385356800,
  237614230739534794,
  391110907456280614113231078066657475266206379792680634354287774256125945778305626949529108480,
  274205840272966474,
  391110907456280614113231078066657475266206379792680634354287774246224843315661814008685527040,
  238177043254002634,
  391110907456280614113231078066657475266206379792680634354287774256089082542818488729961758720,
  273651823851520714,
  391110907456280614113231078066657475266206379792680634354287774253613806927157535494750863360,
  237631822925578954,
  391110907456280614113231078066657475266206379792680634354287774256127758724313191124261928960,
  274214636365988554,
  391110907456280614113231078066657475266206379792680634354287774253652483108652237889051033600,
  238194635440046794,
  391110907456280614113231078066657475266206379792680634354287774256089082542818488729961758720,
  273651823851520714,
  391110907456280614113231078066657475266206379792680634354287774256127758724313191124261928960,
  274214636365988554,
  391110907456280614113231078066657475266206379792680634354287774256087269449273000762571489280,
  273634233812960074,
  391110907456280614113231078066657475266206379792680634354287774246186166986629187821727907840,
  237605436793996234,
  391110907456280614113231078066657475266206379792680634354287774256125945630767703156871659520,
  274197046327427914,
  391110907456280614113231078066657475266206379792680634354287774246224843168123890216028078080,
  238168249308464074,
  391110907456280614113231078066657475266206379792680634354287774256089082837894336315276656640,
  273651825999004234,
  391110907456280614113231078066657475266206379792680634354287774256127759019389038709576826880,
  274214638513472074,
  391110907456280614113231078066657475266206379792680634354287774246224843320272374127206072320,
  238177043287557064,
  391110907456280614113231078066657475266206379792680634354287774256125945782916187068049653760,
  274205840306520904,
  391110907456280614113231078066657475266206379792680634354287774256127759023999598828097372160,
  274214638547026504,
  391110907456280614113231078066657475266206379792680634354287774253652483408338645592886476800,
  238194637621084744,
  391110907456280614113231078066657475266206379792680634354287774256125945782916187068049653760,
  274205840306520904,
  391110907456280614113231078066657475266206379792680634354287774246224843320272374127206072320,
  238177043287557064,
  391110907456280614113231078066657475266206379792680634354287774256127758728923751242782474240,
  274214636399542984,
  391110907456280614113231078066657475266206379792680634354287774253652483113262798007571578880,
  238194635473601224,
  391110907456280614113231078066657475266206379792680634354287774256127758728923751242782474240,
  274214636399542984,
  391110907456280614113231078066657475266206379792680634354287774256125945635378263275392204800,
  274197046360982344,
  391110907456280614113231078066657475266206379792680634354287774246224843172734450334548623360,
  238168249342018504,
  391110907456280614113231078066657475266206379792680634354287774256127759023999598828097372160,
  274214638547026504,
  391110907456280614113231078066657475266206379792680634354287774246186167138777671732905902080,
  237614230773089224,
  391110907456280614113231078066657475266206379792680634354287774256087269601421484673749483520,
  273643027792053064,
  391110907456280614113231078066657475266206379792680634354287774246224843320272374127206072320,
  238177043287557064,
  391110907456280614113231078066657475266206379792680634354287774256125945782916187068049653760,
  274205840306520904,
  391110907456280614113231078066657475266206379792680634354287774256089082842504896433797201920,
  273651826032558664,
  391110907456280614113231078066657475266206379792680634354287774253613807226843943198586306560,
  237631825106616904,
  391110907456280614113231078066657475266206379792680634354287774256127759023999598828097372160,
  274214638547026504,
  391110907456280614113231078066657475266206379792680634354287774253652483408338645592886476800,
  238194637621084744,
  391110907456280614113231078066657475266206379792680634354287774256087269601421484673749483520,
  273643027792053064,
  391110907456280614113231078066657475266206379792680634354287774246186167138777671732905902080,
  237614230773089224,
  391110907456280614113231078066657475266206379792680634354287774256125945782916187068049653760,
  274205840306520904,
  391110907456280614113231078066657475266206379792680634354287774246224843320272374127206072320,
  238177043287557064,
  391110907456280614113231078066657475266206379792680634354287774256089082547429048848482304000,
  273651823885075144,
  391110907456280614113231078066657475266206379792680634354287774253613806931768095613271408640,
  237631822959133384,
  391110907456280614113231078066657475266206379792680634354287774256127758728923751242782474240,
  274214636399542984,
  391110907456280614113231078066657475266206379792680634354287774253652483113262798007571578880,
  238194635473601224,
  391110907456280614113231078066657475266206379792680634354287774256089082547429048848482304000,
  273651823885075144,
  391110907456280614113231078066657475266206379792680634354287774256127758728923751242782474240,
  274214636399542984,
  391110907456280614113231078066657475266206379792680634354287774256087269453883560881092034560,
  273634233846514504,
  391110907456280614113231078066657475266206379792680634354287774246186166991239747940248453120,
  237605436827550664,
  391110907456280614113231078066657475266206379792680634354287774256125945635378263275392204800,
  274197046360982344,
  391110907456280614113231078066657475266206379792680634354287774246224843172734450334548623360,
  238168249342018504,
  391110907456280614113231078066657475266206379792680634354287774256089082842504896433797201920,
  273651826032558664,
  391110907456280614113231078066657475266206379792680634354287774256127759023999598828097372160,
  274214638547026504,
  95486061449964584983339283701057945623735789773964993897377053747120384527572829575577600,
  238177043253478346,
  95486061449964584983339283701057945623735789773964993897377063648222847171385770419159040,
  274205840272442186,
  95486061449964584983339283701057945623735789773964993897377063650036088254797530466877440,
  274214638512947786,
  95486061449964584983339283701057945623735789773964993897377061174760472593844295255982080,
  238194637587006026,
  95486061449964584983339283701057945623735789773964993897377063648222847171385770419159040,
  274205840272442186,
  95486061449964584983339283701057945623735789773964993897377053747120384527572829575577600,
  238177043253478346,
  95486061449964584983339283701057945623735789773964993897377063650035793178949945151979520,
  274214636365464266,
  95486061449964584983339283701057945623735789773964993897377061174760177517996709941084160,
  238194635439522506,
  95486061449964584983339283701057945623735789773964993897377063650035793178949945151979520,
  274214636365464266,
  95486061449964584983339283701057945623735789773964993897377063648222699633461977761710080,
  274197046326903626,
  95486061449964584983339283701057945623735789773964993897377053747120236989649036918128640,
  238168249307939786,
  95486061449964584983339283701057945623735789773964993897377063650036088254797530466877440,
  274214638512947786,
  95486061449964584983339283701057945623735789773964993897377053668512026582361029591695360,
  200450467237905356,
  95486061449964584983339283701057945623735789773964993897377058619063257904267500013486080,
  200450469385388876,
  95486061449964584983339283701057945623735789773964993897377053591159663592956240991354880,
  200450467204350926,
  95486061449964584983339283701057945623735789773964993897377058541710894914862711413145600,
  200450469351834446,
  95486061449964584983339283701057945623735789773964993897377061096152262186556287929548800,
  200476855516971596,
  95486061449964584983339283701057945623735789773964993897377058620876646525603052718653440,
  200468061571433036,
  95486061449964584983339283701057945623735789773964993897377061018799899197151499329208320,
  200476855483417166,
  95486061449964584983339283701057945623735789773964993897377058543524283536198264118312960,
  200468061537878606,
  95486061449964584983339283701057945623735789773964993897377058619063257904267500013486080,
  200450469385388876,
  95486061449964584983339283701057945623735789773964993897377053668512026582361029591695360,
  200450467237905356,
  95486061449964584983339283701057945623735789773964993897377058541710894914862711413145600,
  200450469351834446,
  95486061449964584983339283701057945623735789773964993897377053591159663592956240991354880,
  200450467204350926]
def pertQf_mat_cert_3 : List Nat := [95486061449964584983339283701057945623735789773964993897377061096151672034861117299752960,
  164448058498007756,
  95486061449964584983339283701057945623735789773964993897377058620876056373907882088857600,
  164439264552469196,
  95486061449964584983339283701057945623735789773964993897377061018799309045456328699412480,
  164448058464453326,
  95486061449964584983339283701057945623735789773964993897377058543523693384503093488517120,
  164439264518914766,
  95486061449964584983339283701057945623735789773964993897377061096151672034861117299752960,
  164448058498007756,
  95486061449964584983339283701057945623735789773964993897377061018799309045456328699412480,
  164448058464453326,
  95486061449964584983339283701057945623735789773964993897377058619063110366343707356037120,
  164430468459447116,
  95486061449964584983339283701057945623735789773964993897377053668511879044437236934246400,
  164430466311963596,
  95486061449964584983339283701057945623735789773964993897377058541710747376938918755696640,
  164430468425892686,
  95486061449964584983339283701057945623735789773964993897377053591159516055032448333905920,
  164430466278409166,
  95486061449964584983339283701057945623735789773964993897377061096152262186556287929548800,
  200476855516971596,
  95486061449964584983339283701057945623735789773964993897377061018799899197151499329208320,
  200476855483417166,
  95486061449964584983339283701057945623735789773964993897377053747120389138132948096122880,
  238177043287032776,
  95486061449964584983339283701057945623735789773964993897377063648222851781945888939704320,
  274205840305996616,
  95486061449964584983339283701057945623735789773964993897377063650036092865357648987422720,
  274214638546502216,
  95486061449964584983339283701057945623735789773964993897377061174760477204404413776527360,
  238194637620560456,
  95486061449964584983339283701057945623735789773964993897377063648222851781945888939704320,
  274205840305996616,
  95486061449964584983339283701057945623735789773964993897377053747120389138132948096122880,
  238177043287032776,
  95486061449964584983339283701057945623735789773964993897377063650035797789510063672524800,
  274214636399018696,
  95486061449964584983339283701057945623735789773964993897377061174760182128556828461629440,
  238194635473076936,
  95486061449964584983339283701057945623735789773964993897377063650035797789510063672524800,
  274214636399018696,
  95486061449964584983339283701057945623735789773964993897377063648222704244022096282255360,
  274197046360458056,
  95486061449964584983339283701057945623735789773964993897377053747120241600209155438673920,
  238168249341494216,
  95486061449964584983339283701057945623735789773964993897377063650036092865357648987422720,
  274214638546502216,
  95486061449964584983339283701057945623735789773964993897377053708444207643430553795952640,
  237614230772564936,
  95486061449964584983339283701057945623735789773964993897377063609546670287243494639534080,
  273643027791528776,
  95486061449964584983339283701057945623735789773964993897377053747120389138132948096122880,
  238177043287032776,
  95486061449964584983339283701057945623735789773964993897377063648222851781945888939704320,
  274205840305996616,
  95486061449964584983339283701057945623735789773964993897377063611359911370655254687252480,
  273651826032034376,
  95486061449964584983339283701057945623735789773964993897377061136084295709702019476357120,
  237631825106092616,
  95486061449964584983339283701057945623735789773964993897377063650036092865357648987422720,
  274214638546502216,
  95486061449964584983339283701057945623735789773964993897377061174760477204404413776527360,
  238194637620560456,
  95486061449964584983339283701057945623735789773964993897377063609546670287243494639534080,
  273643027791528776,
  95486061449964584983339283701057945623735789773964993897377053708444207643430553795952640,
  237614230772564936,
  95486061449964584983339283701057945623735789773964993897377063648222851781945888939704320,
  274205840305996616,
  95486061449964584983339283701057945623735789773964993897377053747120389138132948096122880,
  238177043287032776,
  95486061449964584983339283701057945623735789773964993897377063611359616294807669372354560,
  273651823884550856,
  95486061449964584983339283701057945623735789773964993897377061136084000633854434161459200,
  237631822958609096,
  95486061449964584983339283701057945623735789773964993897377063650035797789510063672524800,
  274214636399018696,
  95486061449964584983339283701057945623735789773964993897377061174760182128556828461629440,
  238194635473076936,
  95486061449964584983339283701057945623735789773964993897377063611359616294807669372354560,
  273651823884550856,
  95486061449964584983339283701057945623735789773964993897377063650035797789510063672524800,
  274214636399018696,
  95486061449964584983339283701057945623735789773964993897377063609546522749319701982085120,
  273634233845990216,
  95486061449964584983339283701057945623735789773964993897377053708444060105506761138503680,
  237605436827026376,
  95486061449964584983339283701057945623735789773964993897377063648222704244022096282255360,
  274197046360458056,
  95486061449964584983339283701057945623735789773964993897377053747120241600209155438673920,
  238168249341494216,
  95486061449964584983339283701057945623735789773964993897377063611359911370655254687252480,
  273651826032034376,
  95486061449964584983339283701057945623735789773964993897377063650036092865357648987422720,
  274214638546502216,
  95486061449964584983339283701057945623735789773964993897377053668512028887641088851968000,
  201013279752373196,
  95486061449964584983339283701057945623735789773964993897377058619063260209547559273758720,
  201013281899856716,
  95486061449964584983339283701057945623735789773964993897377053591159665898236300251627520,
  201013279718818766,
  95486061449964584983339283701057945623735789773964993897377058541710897220142770673418240,
  201013281866302286,
  95486061449964584983339283701057945623735789773964993897377061096152264491836347189821440,
  201039668031439436,
  95486061449964584983339283701057945623735789773964993897377058620876648830883111978926080,
  201030874085900876,
  95486061449964584983339283701057945623735789773964993897377061018799901502431558589480960,
  201039667997885006,
  95486061449964584983339283701057945623735789773964993897377058543524285841478323378585600,
  201030874052346446,
  95486061449964584983339283701057945623735789773964993897377058619063260209547559273758720,
  201013281899856716,
  95486061449964584983339283701057945623735789773964993897377053668512028887641088851968000,
  201013279752373196,
  95486061449964584983339283701057945623735789773964993897377058541710897220142770673418240,
  201013281866302286,
  95486061449964584983339283701057945623735789773964993897377053591159665898236300251627520,
  201013279718818766,
  95486061449964584983339283701057945623735789773964993897377061096151674340141176560025600,
  165010871012475596,
  95486061449964584983339283701057945623735789773964993897377058620876058679187941349130240,
  165002077066937036,
  95486061449964584983339283701057945623735789773964993897377061018799311350736387959685120,
  165010870978921166,
  95486061449964584983339283701057945623735789773964993897377058543523695689783152748789760,
  165002077033382606,
  95486061449964584983339283701057945623735789773964993897377061096151674340141176560025600,
  165010871012475596,
  95486061449964584983339283701057945623735789773964993897377061018799311350736387959685120,
  165010870978921166,
  95486061449964584983339283701057945623735789773964993897377058619063112671623766616309760,
  164993280973914956,
  95486061449964584983339283701057945623735789773964993897377053668511881349717296194519040,
  164993278826431436,
  95486061449964584983339283701057945623735789773964993897377058541710749682218978015969280,
  164993280940360526,
  95486061449964584983339283701057945623735789773964993897377053591159518360312507594178560,
  164993278792877006,
  95486061449964584983339283701057945623735789773964993897377061096152264491836347189821440,
  201039668031439436,
  95486061449964584983339283701057945623735789773964993897377061018799901502431558589480960,
  201039667997885006,
  95486061449964584983339283701057945623735789773964993897377053708444203032870435275407360,
  237614230739010506,
  95486061449964584983339283701057945623735789773964993897377063609546665676683376118988800,
  273643027757974346,
  95486061449964584983339283701057945623735789773964993897377053747120384527572829575577600,
  238177043253478346,
  95486061449964584983339283701057945623735789773964993897377063648222847171385770419159040,
  274205840272442186,
  95486061449964584983339283701057945623735789773964993897377063611359906760095136166707200,
  273651825998479946,
  95486061449964584983339283701057945623735789773964993897377061136084291099141900955811840,
  237631825072538186,
  95486061449964584983339283701057945623735789773964993897377063650036088254797530466877440,
  274214638512947786,
  95486061449964584983339283701057945623735789773964993897377061174760472593844295255982080,
  238194637587006026,
  95486061449964584983339283701057945623735789773964993897377063609546665676683376118988800,
  273643027757974346,
  95486061449964584983339283701057945623735789773964993897377053708444203032870435275407360,
  237614230739010506,
  95486061449964584983339283701057945623735789773964993897377063648222847171385770419159040,
  274205840272442186,
  95486061449964584983339283701057945623735789773964993897377053747120384527572829575577600,
  238177043253478346,
  95486061449964584983339283701057945623735789773964993897377063611359611684247550851809280,
  273651823850996426,
  95486061449964584983339283701057945623735789773964993897377061136083996023294315640913920,
  237631822925054666,
  95486061449964584983339283701057945623735789773964993897377063650035793178949945151979520,
  274214636365464266,
  95486061449964584983339283701057945623735789773964993897377061174760177517996709941084160,
  238194635439522506,
  95486061449964584983339283701057945623735789773964993897377063611359611684247550851809280,
  273651823850996426,
  95486061449964584983339283701057945623735789773964993897377063650035793178949945151979520,
  274214636365464266,
  95486061449964584983339283701057945623735789773964993897377063609546518138759583461539840,
  273634233812435786,
  95486061449964584983339283701057945623735789773964993897377053708444055494946642617958400,
  237605436793471946,
  95486061449964584983339283701057945623735789773964993897377063648222699633461977761710080,
  274197046326903626,
  95486061449964584983339283701057945623735789773964993897377053747120236989649036918128640,
  238168249307939786,
  95486061449964584983339283701057945623735789773964993897377063611359906760095136166707200,
  273651825998479946,
  95486061449964584983339283701057945623735789773964993897377063650036088254797530466877440,
  274214638512947786,
  95486061449964584983339283701057945623735789773964993897377053591159665898236300251627520,
  201013279718818766,
  95486061449964584983339283701057945623735789773964993897377058541710897220142770673418240,
  201013281866302286,
  95486061449964584983339283701057945623735789773964993897377053668512028887641088851968000,
  201013279752373196,
  95486061449964584983339283701057945623735789773964993897377058619063260209547559273758720,
  201013281899856716,
  95486061449964584983339283701057945623735789773964993897377061018799901502431558589480960,
  201039667997885006,
  95486061449964584983339283701057945623735789773964993897377058543524285841478323378585600,
  201030874052346446,
  95486061449964584983339283701057945623735789773964993897377061096152264491836347189821440,
  201039668031439436,
  95486061449964584983339283701057945623735789773964993897377058620876648830883111978926080,
  201030874085900876,
  95486061449964584983339283701057945623735789773964993897377058541710897220142770673418240,
  201013281866302286,
  95486061449964584983339283701057945623735789773964993897377053591159665898236300251627520,
  201013279718818766,
  95486061449964584983339283701057945623735789773964993897377058619063260209547559273758720,
  201013281899856716,
  95486061449964584983339283701057945623735789773964993897377053668512028887641088851968000,
  201013279752373196,
  95486061449964584983339283701057945623735789773964993897377061018799311350736387959685120,
  165010870978921166,
  95486061449964584983339283701057945623735789773964993897377058543523695689783152748789760,
  165002077033382606,
  95486061449964584983339283701057945623735789773964993897377061096151674340141176560025600,
  165010871012475596,
  95486061449964584983339283701057945623735789773964993897377058620876058679187941349130240,
  165002077066937036,
  95486061449964584983339283701057945623735789773964993897377061018799311350736387959685120,
  165010870978921166,
  95486061449964584983339283701057945623735789773964993897377061096151674340141176560025600,
  165010871012475596,
  95486061449964584983339283701057945623735789773964993897377058541710749682218978015969280,
  164993280940360526,
  95486061449964584983339283701057945623735789773964993897377053591159518360312507594178560,
  164993278792877006,
  95486061449964584983339283701057945623735789773964993897377058619063112671623766616309760,
  164993280973914956,
  95486061449964584983339283701057945623735789773964993897377053668511881349717296194519040,
  164993278826431436,
  95486061449964584983339283701057945623735789773964993897377061018799901502431558589480960,
  201039667997885006,
  95486061449964584983339283701057945623735789773964993897377061096152264491836347189821440,
  201039668031439436,
  95486061449964584983339283701057945623735789773964993897377053747120384527572829575577600,
  238177043253478346,
  95486061449964584983339283701057945623735789773964993897377063648222847171385770419159040,
  274205840272442186,
  95486061449964584983339283701057945623735789773964993897377063650036088254797530466877440,
  274214638512947786,
  95486061449964584983339283701057945623735789773964993897377061174760472593844295255982080,
  238194637587006026,
  95486061449964584983339283701057945623735789773964993897377063648222847171385770419159040,
  274205840272442186,
  95486061449964584983339283701057945623735789773964993897377053747120384527572829575577600,
  238177043253478346,
  95486061449964584983339283701057945623735789773964993897377063650035793178949945151979520,
  274214636365464266,
  95486061449964584983339283701057945623735789773964993897377061174760177517996709941084160,
  238194635439522506,
  95486061449964584983339283701057945623735789773964993897377063650035793178949945151979520,
  274214636365464266,
  95486061449964584983339283701057945623735789773964993897377063648222699633461977761710080,
  274197046326903626,
  95486061449964584983339283701057945623735789773964993897377053747120236989649036918128640,
  238168249307939786,
  95486061449964584983339283701057945623735789773964993897377063650036088254797530466877440,
  274214638512947786,
  95486061449964584983339283701057945623735789773964993897377053668512026582361029591695360,
  200450467237905356,
  95486061449964584983339283701057945623735789773964993897377058619063257904267500013486080,
  200450469385388876,
  95486061449964584983339283701057945623735789773964993897377053591159663592956240991354880,
  200450467204350926,
  95486061449964584983339283701057945623735789773964993897377058541710894914862711413145600,
  200450469351834446,
  95486061449964584983339283701057945623735789773964993897377061096152262186556287929548800,
  200476855516971596,
  95486061449964584983339283701057945623735789773964993897377058620876646525603052718653440,
  200468061571433036,
  95486061449964584983339283701057945623735789773964993897377061018799899197151499329208320,
  200476855483417166,
  95486061449964584983339283701057945623735789773964993897377058543524283536198264118312960,
  200468061537878606,
  95486061449964584983339283701057945623735789773964993897377058619063257904267500013486080,
  200450469385388876,
  95486061449964584983339283701057945623735789773964993897377053668512026582361029591695360,
  200450467237905356,
  95486061449964584983339283701057945623735789773964993897377058541710894914862711413145600,
  200450469351834446,
  95486061449964584983339283701057945623735789773964993897377053591159663592956240991354880,
  200450467204350926,
  95486061449964584983339283701057945623735789773964993897377061096151672034861117299752960,
  164448058498007756,
  95486061449964584983339283701057945623735789773964993897377058620876056373907882088857600,
  164439264552469196,
  95486061449964584983339283701057945623735789773964993897377061018799309045456328699412480,
  164448058464453326,
  95486061449964584983339283701057945623735789773964993897377058543523693384503093488517120,
  164439264518914766,
  95486061449964584983339283701057945623735789773964993897377061096151672034861117299752960,
  164448058498007756,
  95486061449964584983339283701057945623735789773964993897377061018799309045456328699412480,
  164448058464453326,
  95486061449964584983339283701057945623735789773964993897377058619063110366343707356037120,
  164430468459447116,
  95486061449964584983339283701057945623735789773964993897377053668511879044437236934246400,
  164430466311963596,
  95486061449964584983339283701057945623735789773964993897377058541710747376938918755696640,
  164430468425892686,
  95486061449964584983339283701057945623735789773964993897377053591159516055032448333905920,
  164430466278409166,
  95486061449964584983339283701057945623735789773964993897377061096152262186556287929548800,
  200476855516971596,
  95486061449964584983339283701057945623735789773964993897377061018799899197151499329208320,
  200476855483417166,
  95486061449964584983339283701057945623735789773964993897377053747120389138132948096122880,
  238177043287032776,
  95486061449964584983339283701057945623735789773964993897377063648222851781945888939704320,
  274205840305996616,
  95486061449964584983339283701057945623735789773964993897377063650036092865357648987422720,
  274214638546502216,
  95486061449964584983339283701057945623735789773964993897377061174760477204404413776527360,
  238194637620560456,
  95486061449964584983339283701057945623735789773964993897377063648222851781945888939704320,
  274205840305996616,
  95486061449964584983339283701057945623735789773964993897377053747120389138132948096122880,
  238177043287032776,
  95486061449964584983339283701057945623735789773964993897377063650035797789510063672524800,
  274214636399018696,
  95486061449964584983339283701057945623735789773964993897377061174760182128556828461629440,
  238194635473076936,
  95486061449964584983339283701057945623735789773964993897377063650035797789510063672524800,
  274214636399018696,
  95486061449964584983339283701057945623735789773964993897377063648222704244022096282255360,
  274197046360458056,
  95486061449964584983339283701057945623735789773964993897377053747120241600209155438673920,
  238168249341494216,
  95486061449964584983339283701057945623735789773964993897377063650036092865357648987422720,
  274214638546502216,
  95486061449964584983339283701057945623735789773964993897377053708444207643430553795952640,
  237614230772564936,
  95486061449964584983339283701057945623735789773964993897377063609546670287243494639534080,
  273643027791528776,
  95486061449964584983339283701057945623735789773964993897377053747120389138132948096122880,
  238177043287032776,
  95486061449964584983339283701057945623735789773964993897377063648222851781945888939704320,
  274205840305996616,
  95486061449964584983339283701057945623735789773964993897377063611359911370655254687252480,
  273651826032034376,
  95486061449964584983339283701057945623735789773964993897377061136084295709702019476357120,
  237631825106092616,
  95486061449964584983339283701057945623735789773964993897377063650036092865357648987422720,
  274214638546502216,
  95486061449964584983339283701057945623735789773964993897377061174760477204404413776527360,
  238194637620560456,
  95486061449964584983339283701057945623735789773964993897377063609546670287243494639534080,
  273643027791528776,
  95486061449964584983339283701057945623735789773964993897377053708444207643430553795952640,
  237614230772564936,
  95486061449964584983339283701057945623735789773964993897377063648222851781945888939704320,
  274205840305996616,
  95486061449964584983339283701057945623735789773964993897377053747120389138132948096122880,
  238177043287032776,
  95486061449964584983339283701057945623735789773964993897377063611359616294807669372354560,
  273651823884550856,
  95486061449964584983339283701057945623735789773964993897377061136084000633854434161459200,
  237631822958609096,
  95486061449964584983339283701057945623735789773964993897377063650035797789510063672524800,
  274214636399018696,
  95486061449964584983339283701057945623735789773964993897377061174760182128556828461629440,
  238194635473076936,
  95486061449964584983339283701057945623735789773964993897377063611359616294807669372354560,
  273651823884550856,
  95486061449964584983339283701057945623735789773964993897377063650035797789510063672524800,
  274214636399018696,
  95486061449964584983339283701057945623735789773964993897377063609546522749319701982085120,
  273634233845990216,
  95486061449964584983339283701057945623735789773964993897377053708444060105506761138503680,
  237605436827026376,
  95486061449964584983339283701057945623735789773964993897377063648222704244022096282255360,
  274197046360458056,
  95486061449964584983339283701057945623735789773964993897377053747120241600209155438673920,
  238168249341494216,
  95486061449964584983339283701057945623735789773964993897377063611359911370655254687252480,
  273651826032034376,
  95486061449964584983339283701057945623735789773964993897377063650036092865357648987422720,
  274214638546502216,
  95486061449964584983339283701057945623735789773964993897377053668512028887641088851968000,
  201013279752373196,
  95486061449964584983339283701057945623735789773964993897377058619063260209547559273758720,
  201013281899856716,
  95486061449964584983339283701057945623735789773964993897377053591159665898236300251627520,
  201013279718818766,
  95486061449964584983339283701057945623735789773964993897377058541710897220142770673418240,
  201013281866302286,
  95486061449964584983339283701057945623735789773964993897377061096152264491836347189821440,
  201039668031439436,
  95486061449964584983339283701057945623735789773964993897377058620876648830883111978926080,
  201030874085900876,
  95486061449964584983339283701057945623735789773964993897377061018799901502431558589480960,
  201039667997885006,
  95486061449964584983339283701057945623735789773964993897377058543524285841478323378585600,
  201030874052346446]
def pertQf_mat_cert_4 : List Nat := [95486061449964584983339283701057945623735789773964993897377058619063260209547559273758720,
  201013281899856716,
  95486061449964584983339283701057945623735789773964993897377053668512028887641088851968000,
  201013279752373196,
  95486061449964584983339283701057945623735789773964993897377058541710897220142770673418240,
  201013281866302286,
  95486061449964584983339283701057945623735789773964993897377053591159665898236300251627520,
  201013279718818766,
  95486061449964584983339283701057945623735789773964993897377061096151674340141176560025600,
  165010871012475596,
  95486061449964584983339283701057945623735789773964993897377058620876058679187941349130240,
  165002077066937036,
  95486061449964584983339283701057945623735789773964993897377061018799311350736387959685120,
  165010870978921166,
  95486061449964584983339283701057945623735789773964993897377058543523695689783152748789760,
  165002077033382606,
  95486061449964584983339283701057945623735789773964993897377061096151674340141176560025600,
  165010871012475596,
  95486061449964584983339283701057945623735789773964993897377061018799311350736387959685120,
  165010870978921166,
  95486061449964584983339283701057945623735789773964993897377058619063112671623766616309760,
  164993280973914956,
  95486061449964584983339283701057945623735789773964993897377053668511881349717296194519040,
  164993278826431436,
  95486061449964584983339283701057945623735789773964993897377058541710749682218978015969280,
  164993280940360526,
  95486061449964584983339283701057945623735789773964993897377053591159518360312507594178560,
  164993278792877006,
  95486061449964584983339283701057945623735789773964993897377061096152264491836347189821440,
  201039668031439436,
  95486061449964584983339283701057945623735789773964993897377061018799901502431558589480960,
  201039667997885006,
  95486061449964584983339283701057945623735789773964993897377053708444203032870435275407360,
  237614230739010506,
  95486061449964584983339283701057945623735789773964993897377063609546665676683376118988800,
  273643027757974346,
  95486061449964584983339283701057945623735789773964993897377053747120384527572829575577600,
  238177043253478346,
  95486061449964584983339283701057945623735789773964993897377063648222847171385770419159040,
  274205840272442186,
  95486061449964584983339283701057945623735789773964993897377063611359906760095136166707200,
  273651825998479946,
  95486061449964584983339283701057945623735789773964993897377061136084291099141900955811840,
  237631825072538186,
  95486061449964584983339283701057945623735789773964993897377063650036088254797530466877440,
  274214638512947786,
  95486061449964584983339283701057945623735789773964993897377061174760472593844295255982080,
  238194637587006026,
  95486061449964584983339283701057945623735789773964993897377063609546665676683376118988800,
  273643027757974346,
  95486061449964584983339283701057945623735789773964993897377053708444203032870435275407360,
  237614230739010506,
  95486061449964584983339283701057945623735789773964993897377063648222847171385770419159040,
  274205840272442186,
  95486061449964584983339283701057945623735789773964993897377053747120384527572829575577600,
  238177043253478346,
  95486061449964584983339283701057945623735789773964993897377063611359611684247550851809280,
  273651823850996426,
  95486061449964584983339283701057945623735789773964993897377061136083996023294315640913920,
  237631822925054666,
  95486061449964584983339283701057945623735789773964993897377063650035793178949945151979520,
  274214636365464266,
  95486061449964584983339283701057945623735789773964993897377061174760177517996709941084160,
  238194635439522506,
  95486061449964584983339283701057945623735789773964993897377063611359611684247550851809280,
  273651823850996426,
  95486061449964584983339283701057945623735789773964993897377063650035793178949945151979520,
  274214636365464266,
  95486061449964584983339283701057945623735789773964993897377063609546518138759583461539840,
  273634233812435786,
  95486061449964584983339283701057945623735789773964993897377053708444055494946642617958400,
  237605436793471946,
  95486061449964584983339283701057945623735789773964993897377063648222699633461977761710080,
  274197046326903626,
  95486061449964584983339283701057945623735789773964993897377053747120236989649036918128640,
  238168249307939786,
  95486061449964584983339283701057945623735789773964993897377063611359906760095136166707200,
  273651825998479946,
  95486061449964584983339283701057945623735789773964993897377063650036088254797530466877440,
  274214638512947786,
  95486061449964584983339283701057945623735789773964993897377053591159665898236300251627520,
  201013279718818766,
  95486061449964584983339283701057945623735789773964993897377058541710897220142770673418240,
  201013281866302286,
  95486061449964584983339283701057945623735789773964993897377053668512028887641088851968000,
  201013279752373196,
  95486061449964584983339283701057945623735789773964993897377058619063260209547559273758720,
  201013281899856716,
  95486061449964584983339283701057945623735789773964993897377061018799901502431558589480960,
  201039667997885006,
  95486061449964584983339283701057945623735789773964993897377058543524285841478323378585600,
  201030874052346446,
  95486061449964584983339283701057945623735789773964993897377061096152264491836347189821440,
  201039668031439436,
  95486061449964584983339283701057945623735789773964993897377058620876648830883111978926080,
  201030874085900876,
  95486061449964584983339283701057945623735789773964993897377058541710897220142770673418240,
  201013281866302286,
  95486061449964584983339283701057945623735789773964993897377053591159665898236300251627520,
  201013279718818766,
  95486061449964584983339283701057945623735789773964993897377058619063260209547559273758720,
  201013281899856716,
  95486061449964584983339283701057945623735789773964993897377053668512028887641088851968000,
  201013279752373196,
  95486061449964584983339283701057945623735789773964993897377061018799311350736387959685120,
  165010870978921166,
  95486061449964584983339283701057945623735789773964993897377058543523695689783152748789760,
  165002077033382606,
  95486061449964584983339283701057945623735789773964993897377061096151674340141176560025600,
  165010871012475596,
  95486061449964584983339283701057945623735789773964993897377058620876058679187941349130240,
  165002077066937036,
  95486061449964584983339283701057945623735789773964993897377061018799311350736387959685120,
  165010870978921166,
  95486061449964584983339283701057945623735789773964993897377061096151674340141176560025600,
  165010871012475596,
  95486061449964584983339283701057945623735789773964993897377058541710749682218978015969280,
  164993280940360526,
  95486061449964584983339283701057945623735789773964993897377053591159518360312507594178560,
  164993278792877006,
  95486061449964584983339283701057945623735789773964993897377058619063112671623766616309760,
  164993280973914956,
  95486061449964584983339283701057945623735789773964993897377053668511881349717296194519040,
  164993278826431436,
  95486061449964584983339283701057945623735789773964993897377061018799901502431558589480960,
  201039667997885006,
  95486061449964584983339283701057945623735789773964993897377061096152264491836347189821440,
  201039668031439436,
  391110907699054940091757706039533345274821794914160615003656406441184871174530681636084776960,
  164448058464985806,
  391110907699054940091757706039533345274821794914160615003656406438709595558869728400873881600,
  164439264519447246,
  391110907699054940091757706039533345274821794914160615003656406441262223537520086424685117440,
  164448058498540236,
  391110907699054940091757706039533345274821794914160615003656406438786947921859133189474222080,
  164439264553001676,
  391110907699054940091757706039533345274821794914160615003656406441184871174530681636084776960,
  164448058464985806,
  391110907699054940091757706039533345274821794914160615003656406441262223537520086424685117440,
  164448058498540236,
  391110907699054940091757706039533345274821794914160615003656406441184871764682376806714572800,
  200476855483949646,
  391110907699054940091757706039533345274821794914160615003656406438709596149021423571503677440,
  200468061538411086,
  391110907699054940091757706039533345274821794914160615003656406441262224127671781595314913280,
  200476855517504076,
  391110907699054940091757706039533345274821794914160615003656406438786948512010828360104017920,
  200468061571965516,
  391110907699054940091757706039533345274821794914160615003656406433757231529078181548376719360,
  200450467204883406,
  391110907699054940091757706039533345274821794914160615003656406438707782760400088018798510080,
  200450469352366926,
  391110907699054940091757706039533345274821794914160615003656406433834583892067586336977059840,
  200450467238437836,
  391110907699054940091757706039533345274821794914160615003656406438785135123389492807398850560,
  200450469385921356,
  391110907699054940091757706039533345274821794914160615003656406433757231529078181548376719360,
  200450467204883406,
  391110907699054940091757706039533345274821794914160615003656406438707782760400088018798510080,
  200450469352366926,
  391110907699054940091757706039533345274821794914160615003656406433834583892067586336977059840,
  200450467238437836,
  391110907699054940091757706039533345274821794914160615003656406438785135123389492807398850560,
  200450469385921356,
  391110907699054940091757706039533345274821794914160615003656406441184871764682376806714572800,
  200476855483949646,
  391110907699054940091757706039533345274821794914160615003656406441262224127671781595314913280,
  200476855517504076,
  391110907699054940091757706039533345274821794914160615003656406433757231381540257755719270400,
  164430466278941646,
  391110907699054940091757706039533345274821794914160615003656406438707782612862164226141061120,
  164430468426425166,
  391110907699054940091757706039533345274821794914160615003656406433834583744529662544319610880,
  164430466312496076,
  391110907699054940091757706039533345274821794914160615003656406438785134975851569014741401600,
  164430468459979596,
  391110907699054940091757706039533345274821794914160615003656406443816107658664175252537344000,
  274214636365996746,
  391110907699054940091757706039533345274821794914160615003656406441340832043003222017326448640,
  238194635440054986,
  391110907699054940091757706039533345274821794914160615003656406443816107658664175252537344000,
  274214636365996746,
  391110907699054940091757706039533345274821794914160615003656406443816107953740022837852241920,
  274214638513480266,
  391110907699054940091757706039533345274821794914160615003656406441340832338079069602641346560,
  238194637587538506,
  391110907699054940091757706039533345274821794914160615003656406433913192250012798136960942080,
  238177043254010826,
  391110907699054940091757706039533345274821794914160615003656406443814294712656611077804523520,
  274205840272974666,
  391110907699054940091757706039533345274821794914160615003656406433913192250012798136960942080,
  238177043254010826,
  391110907699054940091757706039533345274821794914160615003656406443814294712656611077804523520,
  274205840272974666,
  391110907699054940091757706039533345274821794914160615003656406443816107953740022837852241920,
  274214638513480266,
  391110907699054940091757706039533345274821794914160615003656406433913192102474874344303493120,
  238168249308472266,
  391110907699054940091757706039533345274821794914160615003656406443814294565118687285147074560,
  274197046327436106,
  391110907699054940091757706039533345274821794914160615003656406441184871176835961695345049600,
  165010870979453646,
  391110907699054940091757706039533345274821794914160615003656406438709595561175008460134154240,
  165002077033915086,
  391110907699054940091757706039533345274821794914160615003656406441262223539825366483945390080,
  165010871013008076,
  391110907699054940091757706039533345274821794914160615003656406438786947924164413248734494720,
  165002077067469516,
  391110907699054940091757706039533345274821794914160615003656406441184871176835961695345049600,
  165010870979453646,
  391110907699054940091757706039533345274821794914160615003656406441262223539825366483945390080,
  165010871013008076,
  391110907699054940091757706039533345274821794914160615003656406441184871766987656865974845440,
  201039667998417486,
  391110907699054940091757706039533345274821794914160615003656406438709596151326703630763950080,
  201030874052878926,
  391110907699054940091757706039533345274821794914160615003656406441262224129977061654575185920,
  201039668031971916,
  391110907699054940091757706039533345274821794914160615003656406438786948514316108419364290560,
  201030874086433356,
  391110907699054940091757706039533345274821794914160615003656406433757231531383461607636992000,
  201013279719351246,
  391110907699054940091757706039533345274821794914160615003656406438707782762705368078058782720,
  201013281866834766,
  391110907699054940091757706039533345274821794914160615003656406433834583894372866396237332480,
  201013279752905676,
  391110907699054940091757706039533345274821794914160615003656406438785135125694772866659123200,
  201013281900389196,
  391110907699054940091757706039533345274821794914160615003656406433757231531383461607636992000,
  201013279719351246,
  391110907699054940091757706039533345274821794914160615003656406438707782762705368078058782720,
  201013281866834766,
  391110907699054940091757706039533345274821794914160615003656406433834583894372866396237332480,
  201013279752905676,
  391110907699054940091757706039533345274821794914160615003656406438785135125694772866659123200,
  201013281900389196,
  391110907699054940091757706039533345274821794914160615003656406441184871766987656865974845440,
  201039667998417486,
  391110907699054940091757706039533345274821794914160615003656406441262224129977061654575185920,
  201039668031971916,
  391110907699054940091757706039533345274821794914160615003656406433757231383845537814979543040,
  164993278793409486,
  391110907699054940091757706039533345274821794914160615003656406438707782615167444285401333760,
  164993280940893006,
  391110907699054940091757706039533345274821794914160615003656406433834583746834942603579883520,
  164993278826963916,
  391110907699054940091757706039533345274821794914160615003656406438785134978156849074001674240,
  164993280974447436,
  391110907699054940091757706039533345274821794914160615003656406441184871176835961695345049600,
  165010870979453646,
  391110907699054940091757706039533345274821794914160615003656406438709595561175008460134154240,
  165002077033915086,
  391110907699054940091757706039533345274821794914160615003656406441262223539825366483945390080,
  165010871013008076,
  391110907699054940091757706039533345274821794914160615003656406438786947924164413248734494720,
  165002077067469516,
  391110907699054940091757706039533345274821794914160615003656406441184871176835961695345049600,
  165010870979453646,
  391110907699054940091757706039533345274821794914160615003656406441262223539825366483945390080,
  165010871013008076,
  391110907699054940091757706039533345274821794914160615003656406441184871766987656865974845440,
  201039667998417486,
  391110907699054940091757706039533345274821794914160615003656406438709596151326703630763950080,
  201030874052878926,
  391110907699054940091757706039533345274821794914160615003656406441262224129977061654575185920,
  201039668031971916,
  391110907699054940091757706039533345274821794914160615003656406438786948514316108419364290560,
  201030874086433356,
  391110907699054940091757706039533345274821794914160615003656406433757231531383461607636992000,
  201013279719351246,
  391110907699054940091757706039533345274821794914160615003656406438707782762705368078058782720,
  201013281866834766,
  391110907699054940091757706039533345274821794914160615003656406433834583894372866396237332480,
  201013279752905676,
  391110907699054940091757706039533345274821794914160615003656406438785135125694772866659123200,
  201013281900389196,
  391110907699054940091757706039533345274821794914160615003656406433757231531383461607636992000,
  201013279719351246,
  391110907699054940091757706039533345274821794914160615003656406438707782762705368078058782720,
  201013281866834766,
  391110907699054940091757706039533345274821794914160615003656406433834583894372866396237332480,
  201013279752905676,
  391110907699054940091757706039533345274821794914160615003656406438785135125694772866659123200,
  201013281900389196,
  391110907699054940091757706039533345274821794914160615003656406441184871766987656865974845440,
  201039667998417486,
  391110907699054940091757706039533345274821794914160615003656406441262224129977061654575185920,
  201039668031971916,
  391110907699054940091757706039533345274821794914160615003656406433757231383845537814979543040,
  164993278793409486,
  391110907699054940091757706039533345274821794914160615003656406438707782615167444285401333760,
  164993280940893006,
  391110907699054940091757706039533345274821794914160615003656406433834583746834942603579883520,
  164993278826963916,
  391110907699054940091757706039533345274821794914160615003656406438785134978156849074001674240,
  164993280974447436,
  391110907699054940091757706039533345274821794914160615003656406443777431477169472858237173760,
  273651823851528906,
  391110907699054940091757706039533345274821794914160615003656406441302155861508519623026278400,
  237631822925587146,
  391110907699054940091757706039533345274821794914160615003656406443816107658664175252537344000,
  274214636365996746,
  391110907699054940091757706039533345274821794914160615003656406441340832043003222017326448640,
  238194635440054986,
  391110907699054940091757706039533345274821794914160615003656406443777431477169472858237173760,
  273651823851528906,
  391110907699054940091757706039533345274821794914160615003656406443816107658664175252537344000,
  274214636365996746,
  391110907699054940091757706039533345274821794914160615003656406443777431772245320443552071680,
  273651825999012426,
  391110907699054940091757706039533345274821794914160615003656406441302156156584367208341176320,
  237631825073070666,
  391110907699054940091757706039533345274821794914160615003656406443816107953740022837852241920,
  274214638513480266,
  391110907699054940091757706039533345274821794914160615003656406441340832338079069602641346560,
  238194637587538506,
  391110907699054940091757706039533345274821794914160615003656406433874516068518095742660771840,
  237614230739542986,
  391110907699054940091757706039533345274821794914160615003656406443775618531161908683504353280,
  273643027758506826,
  391110907699054940091757706039533345274821794914160615003656406433913192250012798136960942080,
  238177043254010826,
  391110907699054940091757706039533345274821794914160615003656406443814294712656611077804523520,
  274205840272974666,
  391110907699054940091757706039533345274821794914160615003656406433874516068518095742660771840,
  237614230739542986,
  391110907699054940091757706039533345274821794914160615003656406443775618531161908683504353280,
  273643027758506826,
  391110907699054940091757706039533345274821794914160615003656406433913192250012798136960942080,
  238177043254010826,
  391110907699054940091757706039533345274821794914160615003656406443814294712656611077804523520,
  274205840272974666,
  391110907699054940091757706039533345274821794914160615003656406443777431772245320443552071680,
  273651825999012426,
  391110907699054940091757706039533345274821794914160615003656406443816107953740022837852241920,
  274214638513480266,
  391110907699054940091757706039533345274821794914160615003656406433874515920980171950003322880,
  237605436794004426,
  391110907699054940091757706039533345274821794914160615003656406443775618383623984890846904320,
  273634233812968266,
  391110907699054940091757706039533345274821794914160615003656406433913192102474874344303493120,
  238168249308472266,
  391110907699054940091757706039533345274821794914160615003656406443814294565118687285147074560,
  274197046327436106,
  391110907699054940091757706039533345274821794914160615003656406443816107663274735371057889280,
  274214636399551176,
  391110907699054940091757706039533345274821794914160615003656406441340832047613782135846993920,
  238194635473609416,
  391110907699054940091757706039533345274821794914160615003656406443816107663274735371057889280,
  274214636399551176,
  391110907699054940091757706039533345274821794914160615003656406443816107958350582956372787200,
  274214638547034696,
  391110907699054940091757706039533345274821794914160615003656406441340832342689629721161891840,
  238194637621092936,
  391110907699054940091757706039533345274821794914160615003656406433913192254623358255481487360,
  238177043287565256,
  391110907699054940091757706039533345274821794914160615003656406443814294717267171196325068800,
  274205840306529096,
  391110907699054940091757706039533345274821794914160615003656406433913192254623358255481487360,
  238177043287565256,
  391110907699054940091757706039533345274821794914160615003656406443814294717267171196325068800,
  274205840306529096,
  391110907699054940091757706039533345274821794914160615003656406443816107958350582956372787200,
  274214638547034696,
  391110907699054940091757706039533345274821794914160615003656406433913192107085434462824038400,
  238168249342026696,
  391110907699054940091757706039533345274821794914160615003656406443814294569729247403667619840,
  274197046360990536,
  391110907699054940091757706039533345274821794914160615003656406443777431481780032976757719040,
  273651823885083336,
  391110907699054940091757706039533345274821794914160615003656406441302155866119079741546823680,
  237631822959141576,
  391110907699054940091757706039533345274821794914160615003656406443816107663274735371057889280,
  274214636399551176,
  391110907699054940091757706039533345274821794914160615003656406441340832047613782135846993920,
  238194635473609416,
  391110907699054940091757706039533345274821794914160615003656406443777431481780032976757719040,
  273651823885083336,
  391110907699054940091757706039533345274821794914160615003656406443816107663274735371057889280,
  274214636399551176,
  391110907699054940091757706039533345274821794914160615003656406443777431776855880562072616960,
  273651826032566856,
  391110907699054940091757706039533345274821794914160615003656406441302156161194927326861721600,
  237631825106625096,
  391110907699054940091757706039533345274821794914160615003656406443816107958350582956372787200,
  274214638547034696,
  391110907699054940091757706039533345274821794914160615003656406441340832342689629721161891840,
  238194637621092936,
  391110907699054940091757706039533345274821794914160615003656406433874516073128655861181317120,
  237614230773097416,
  391110907699054940091757706039533345274821794914160615003656406443775618535772468802024898560,
  273643027792061256,
  391110907699054940091757706039533345274821794914160615003656406433913192254623358255481487360,
  238177043287565256,
  391110907699054940091757706039533345274821794914160615003656406443814294717267171196325068800,
  274205840306529096,
  391110907699054940091757706039533345274821794914160615003656406433874516073128655861181317120,
  237614230773097416,
  391110907699054940091757706039533345274821794914160615003656406443775618535772468802024898560,
  273643027792061256]
def pertQf_mat_cert_5 : List Nat := [391110907699054940091757706039533345274821794914160615003656406433913192254623358255481487360,
  238177043287565256,
  391110907699054940091757706039533345274821794914160615003656406443814294717267171196325068800,
  274205840306529096,
  391110907699054940091757706039533345274821794914160615003656406443777431776855880562072616960,
  273651826032566856,
  391110907699054940091757706039533345274821794914160615003656406443816107958350582956372787200,
  274214638547034696,
  391110907699054940091757706039533345274821794914160615003656406433874515925590732068523868160,
  237605436827558856,
  391110907699054940091757706039533345274821794914160615003656406443775618388234545009367449600,
  273634233846522696,
  391110907699054940091757706039533345274821794914160615003656406433913192107085434462824038400,
  238168249342026696,
  391110907699054940091757706039533345274821794914160615003656406443814294569729247403667619840,
  274197046360990536,
  391110907699054940091757706039533345274821794914160615003656406441184871174530681636084776960,
  164448058464985806,
  391110907699054940091757706039533345274821794914160615003656406438709595558869728400873881600,
  164439264519447246,
  391110907699054940091757706039533345274821794914160615003656406441262223537520086424685117440,
  164448058498540236,
  391110907699054940091757706039533345274821794914160615003656406438786947921859133189474222080,
  164439264553001676,
  391110907699054940091757706039533345274821794914160615003656406441184871174530681636084776960,
  164448058464985806,
  391110907699054940091757706039533345274821794914160615003656406441262223537520086424685117440,
  164448058498540236,
  391110907699054940091757706039533345274821794914160615003656406441184871764682376806714572800,
  200476855483949646,
  391110907699054940091757706039533345274821794914160615003656406438709596149021423571503677440,
  200468061538411086,
  391110907699054940091757706039533345274821794914160615003656406441262224127671781595314913280,
  200476855517504076,
  391110907699054940091757706039533345274821794914160615003656406438786948512010828360104017920,
  200468061571965516,
  391110907699054940091757706039533345274821794914160615003656406433757231529078181548376719360,
  200450467204883406,
  391110907699054940091757706039533345274821794914160615003656406438707782760400088018798510080,
  200450469352366926,
  391110907699054940091757706039533345274821794914160615003656406433834583892067586336977059840,
  200450467238437836,
  391110907699054940091757706039533345274821794914160615003656406438785135123389492807398850560,
  200450469385921356,
  391110907699054940091757706039533345274821794914160615003656406433757231529078181548376719360,
  200450467204883406,
  391110907699054940091757706039533345274821794914160615003656406438707782760400088018798510080,
  200450469352366926,
  391110907699054940091757706039533345274821794914160615003656406433834583892067586336977059840,
  200450467238437836,
  391110907699054940091757706039533345274821794914160615003656406438785135123389492807398850560,
  200450469385921356,
  391110907699054940091757706039533345274821794914160615003656406441184871764682376806714572800,
  200476855483949646,
  391110907699054940091757706039533345274821794914160615003656406441262224127671781595314913280,
  200476855517504076,
  391110907699054940091757706039533345274821794914160615003656406433757231381540257755719270400,
  164430466278941646,
  391110907699054940091757706039533345274821794914160615003656406438707782612862164226141061120,
  164430468426425166,
  391110907699054940091757706039533345274821794914160615003656406433834583744529662544319610880,
  164430466312496076,
  391110907699054940091757706039533345274821794914160615003656406438785134975851569014741401600,
  164430468459979596,
  391110907699054940091757706039533345274821794914160615003656406443816107658664175252537344000,
  274214636365996746,
  391110907699054940091757706039533345274821794914160615003656406441340832043003222017326448640,
  238194635440054986,
  391110907699054940091757706039533345274821794914160615003656406443816107658664175252537344000,
  274214636365996746,
  391110907699054940091757706039533345274821794914160615003656406443816107953740022837852241920,
  274214638513480266,
  391110907699054940091757706039533345274821794914160615003656406441340832338079069602641346560,
  238194637587538506,
  391110907699054940091757706039533345274821794914160615003656406433913192250012798136960942080,
  238177043254010826,
  391110907699054940091757706039533345274821794914160615003656406443814294712656611077804523520,
  274205840272974666,
  391110907699054940091757706039533345274821794914160615003656406433913192250012798136960942080,
  238177043254010826,
  391110907699054940091757706039533345274821794914160615003656406443814294712656611077804523520,
  274205840272974666,
  391110907699054940091757706039533345274821794914160615003656406443816107953740022837852241920,
  274214638513480266,
  391110907699054940091757706039533345274821794914160615003656406433913192102474874344303493120,
  238168249308472266,
  391110907699054940091757706039533345274821794914160615003656406443814294565118687285147074560,
  274197046327436106,
  391110907699054940091757706039533345274821794914160615003656406441184871176835961695345049600,
  165010870979453646,
  391110907699054940091757706039533345274821794914160615003656406438709595561175008460134154240,
  165002077033915086,
  391110907699054940091757706039533345274821794914160615003656406441262223539825366483945390080,
  165010871013008076,
  391110907699054940091757706039533345274821794914160615003656406438786947924164413248734494720,
  165002077067469516,
  391110907699054940091757706039533345274821794914160615003656406441184871176835961695345049600,
  165010870979453646,
  391110907699054940091757706039533345274821794914160615003656406441262223539825366483945390080,
  165010871013008076,
  391110907699054940091757706039533345274821794914160615003656406441184871766987656865974845440,
  201039667998417486,
  391110907699054940091757706039533345274821794914160615003656406438709596151326703630763950080,
  201030874052878926,
  391110907699054940091757706039533345274821794914160615003656406441262224129977061654575185920,
  201039668031971916,
  391110907699054940091757706039533345274821794914160615003656406438786948514316108419364290560,
  201030874086433356,
  391110907699054940091757706039533345274821794914160615003656406433757231531383461607636992000,
  201013279719351246,
  391110907699054940091757706039533345274821794914160615003656406438707782762705368078058782720,
  201013281866834766,
  391110907699054940091757706039533345274821794914160615003656406433834583894372866396237332480,
  201013279752905676,
  391110907699054940091757706039533345274821794914160615003656406438785135125694772866659123200,
  201013281900389196,
  391110907699054940091757706039533345274821794914160615003656406433757231531383461607636992000,
  201013279719351246,
  391110907699054940091757706039533345274821794914160615003656406438707782762705368078058782720,
  201013281866834766,
  391110907699054940091757706039533345274821794914160615003656406433834583894372866396237332480,
  201013279752905676,
  391110907699054940091757706039533345274821794914160615003656406438785135125694772866659123200,
  201013281900389196,
  391110907699054940091757706039533345274821794914160615003656406441184871766987656865974845440,
  201039667998417486,
  391110907699054940091757706039533345274821794914160615003656406441262224129977061654575185920,
  201039668031971916,
  391110907699054940091757706039533345274821794914160615003656406433757231383845537814979543040,
  164993278793409486,
  391110907699054940091757706039533345274821794914160615003656406438707782615167444285401333760,
  164993280940893006,
  391110907699054940091757706039533345274821794914160615003656406433834583746834942603579883520,
  164993278826963916,
  391110907699054940091757706039533345274821794914160615003656406438785134978156849074001674240,
  164993280974447436,
  391110907699054940091757706039533345274821794914160615003656406441184871176835961695345049600,
  165010870979453646,
  391110907699054940091757706039533345274821794914160615003656406438709595561175008460134154240,
  165002077033915086,
  391110907699054940091757706039533345274821794914160615003656406441262223539825366483945390080,
  165010871013008076,
  391110907699054940091757706039533345274821794914160615003656406438786947924164413248734494720,
  165002077067469516,
  391110907699054940091757706039533345274821794914160615003656406441184871176835961695345049600,
  165010870979453646,
  391110907699054940091757706039533345274821794914160615003656406441262223539825366483945390080,
  165010871013008076,
  391110907699054940091757706039533345274821794914160615003656406441184871766987656865974845440,
  201039667998417486,
  391110907699054940091757706039533345274821794914160615003656406438709596151326703630763950080,
  201030874052878926,
  391110907699054940091757706039533345274821794914160615003656406441262224129977061654575185920,
  201039668031971916,
  391110907699054940091757706039533345274821794914160615003656406438786948514316108419364290560,
  201030874086433356,
  391110907699054940091757706039533345274821794914160615003656406433757231531383461607636992000,
  201013279719351246,
  391110907699054940091757706039533345274821794914160615003656406438707782762705368078058782720,
  201013281866834766,
  391110907699054940091757706039533345274821794914160615003656406433834583894372866396237332480,
  201013279752905676,
  391110907699054940091757706039533345274821794914160615003656406438785135125694772866659123200,
  201013281900389196,
  391110907699054940091757706039533345274821794914160615003656406433757231531383461607636992000,
  201013279719351246,
  391110907699054940091757706039533345274821794914160615003656406438707782762705368078058782720,
  201013281866834766,
  391110907699054940091757706039533345274821794914160615003656406433834583894372866396237332480,
  201013279752905676,
  391110907699054940091757706039533345274821794914160615003656406438785135125694772866659123200,
  201013281900389196,
  391110907699054940091757706039533345274821794914160615003656406441184871766987656865974845440,
  201039667998417486,
  391110907699054940091757706039533345274821794914160615003656406441262224129977061654575185920,
  201039668031971916,
  391110907699054940091757706039533345274821794914160615003656406433757231383845537814979543040,
  164993278793409486,
  391110907699054940091757706039533345274821794914160615003656406438707782615167444285401333760,
  164993280940893006,
  391110907699054940091757706039533345274821794914160615003656406433834583746834942603579883520,
  164993278826963916,
  391110907699054940091757706039533345274821794914160615003656406438785134978156849074001674240,
  164993280974447436,
  391110907699054940091757706039533345274821794914160615003656406443777431477169472858237173760,
  273651823851528906,
  391110907699054940091757706039533345274821794914160615003656406441302155861508519623026278400,
  237631822925587146,
  391110907699054940091757706039533345274821794914160615003656406443816107658664175252537344000,
  274214636365996746,
  391110907699054940091757706039533345274821794914160615003656406441340832043003222017326448640,
  238194635440054986,
  391110907699054940091757706039533345274821794914160615003656406443777431477169472858237173760,
  273651823851528906,
  391110907699054940091757706039533345274821794914160615003656406443816107658664175252537344000,
  274214636365996746,
  391110907699054940091757706039533345274821794914160615003656406443777431772245320443552071680,
  273651825999012426,
  391110907699054940091757706039533345274821794914160615003656406441302156156584367208341176320,
  237631825073070666,
  391110907699054940091757706039533345274821794914160615003656406443816107953740022837852241920,
  274214638513480266,
  391110907699054940091757706039533345274821794914160615003656406441340832338079069602641346560,
  238194637587538506,
  391110907699054940091757706039533345274821794914160615003656406433874516068518095742660771840,
  237614230739542986,
  391110907699054940091757706039533345274821794914160615003656406443775618531161908683504353280,
  273643027758506826,
  391110907699054940091757706039533345274821794914160615003656406433913192250012798136960942080,
  238177043254010826,
  391110907699054940091757706039533345274821794914160615003656406443814294712656611077804523520,
  274205840272974666,
  391110907699054940091757706039533345274821794914160615003656406433874516068518095742660771840,
  237614230739542986,
  391110907699054940091757706039533345274821794914160615003656406443775618531161908683504353280,
  273643027758506826,
  391110907699054940091757706039533345274821794914160615003656406433913192250012798136960942080,
  238177043254010826,
  391110907699054940091757706039533345274821794914160615003656406443814294712656611077804523520,
  274205840272974666,
  391110907699054940091757706039533345274821794914160615003656406443777431772245320443552071680,
  273651825999012426,
  391110907699054940091757706039533345274821794914160615003656406443816107953740022837852241920,
  274214638513480266,
  391110907699054940091757706039533345274821794914160615003656406433874515920980171950003322880,
  237605436794004426,
  391110907699054940091757706039533345274821794914160615003656406443775618383623984890846904320,
  273634233812968266,
  391110907699054940091757706039533345274821794914160615003656406433913192102474874344303493120,
  238168249308472266,
  391110907699054940091757706039533345274821794914160615003656406443814294565118687285147074560,
  274197046327436106,
  391110907699054940091757706039533345274821794914160615003656406443816107663274735371057889280,
  274214636399551176,
  391110907699054940091757706039533345274821794914160615003656406441340832047613782135846993920,
  238194635473609416,
  391110907699054940091757706039533345274821794914160615003656406443816107663274735371057889280,
  274214636399551176,
  391110907699054940091757706039533345274821794914160615003656406443816107958350582956372787200,
  274214638547034696,
  391110907699054940091757706039533345274821794914160615003656406441340832342689629721161891840,
  238194637621092936,
  391110907699054940091757706039533345274821794914160615003656406433913192254623358255481487360,
  238177043287565256,
  391110907699054940091757706039533345274821794914160615003656406443814294717267171196325068800,
  274205840306529096,
  391110907699054940091757706039533345274821794914160615003656406433913192254623358255481487360,
  238177043287565256,
  391110907699054940091757706039533345274821794914160615003656406443814294717267171196325068800,
  274205840306529096,
  391110907699054940091757706039533345274821794914160615003656406443816107958350582956372787200,
  274214638547034696,
  391110907699054940091757706039533345274821794914160615003656406433913192107085434462824038400,
  238168249342026696,
  391110907699054940091757706039533345274821794914160615003656406443814294569729247403667619840,
  274197046360990536,
  391110907699054940091757706039533345274821794914160615003656406443777431481780032976757719040,
  273651823885083336,
  391110907699054940091757706039533345274821794914160615003656406441302155866119079741546823680,
  237631822959141576,
  391110907699054940091757706039533345274821794914160615003656406443816107663274735371057889280,
  274214636399551176,
  391110907699054940091757706039533345274821794914160615003656406441340832047613782135846993920,
  238194635473609416,
  391110907699054940091757706039533345274821794914160615003656406443777431481780032976757719040,
  273651823885083336,
  391110907699054940091757706039533345274821794914160615003656406443816107663274735371057889280,
  274214636399551176,
  391110907699054940091757706039533345274821794914160615003656406443777431776855880562072616960,
  273651826032566856,
  391110907699054940091757706039533345274821794914160615003656406441302156161194927326861721600,
  237631825106625096,
  391110907699054940091757706039533345274821794914160615003656406443816107958350582956372787200,
  274214638547034696,
  391110907699054940091757706039533345274821794914160615003656406441340832342689629721161891840,
  238194637621092936,
  391110907699054940091757706039533345274821794914160615003656406433874516073128655861181317120,
  237614230773097416,
  391110907699054940091757706039533345274821794914160615003656406443775618535772468802024898560,
  273643027792061256,
  391110907699054940091757706039533345274821794914160615003656406433913192254623358255481487360,
  238177043287565256,
  391110907699054940091757706039533345274821794914160615003656406443814294717267171196325068800,
  274205840306529096,
  391110907699054940091757706039533345274821794914160615003656406433874516073128655861181317120,
  237614230773097416,
  391110907699054940091757706039533345274821794914160615003656406443775618535772468802024898560,
  273643027792061256,
  391110907699054940091757706039533345274821794914160615003656406433913192254623358255481487360,
  238177043287565256,
  391110907699054940091757706039533345274821794914160615003656406443814294717267171196325068800,
  274205840306529096,
  391110907699054940091757706039533345274821794914160615003656406443777431776855880562072616960,
  273651826032566856,
  391110907699054940091757706039533345274821794914160615003656406443816107958350582956372787200,
  274214638547034696,
  391110907699054940091757706039533345274821794914160615003656406433874515925590732068523868160,
  237605436827558856,
  391110907699054940091757706039533345274821794914160615003656406443775618388234545009367449600,
  273634233846522696,
  391110907699054940091757706039533345274821794914160615003656406433913192107085434462824038400,
  238168249342026696,
  391110907699054940091757706039533345274821794914160615003656406443814294569729247403667619840,
  274197046360990536,
  95486304224290563509967256576927954239150911253945643266009251338384727529934073427394560,
  274214636365472458,
  95486304224290563509967256576927954239150911253945643266009248863109111868980838216499200,
  238194635439530698,
  95486304224290563509967256576927954239150911253945643266009251338384727529934073427394560,
  274214636365472458,
  95486304224290563509967256576927954239150911253945643266009251338385022605781658742292480,
  274214638512955978,
  95486304224290563509967256576927954239150911253945643266009248863109406944828423531397120,
  238194637587014218,
  95486304224290563509967256576927954239150911253945643266009241435469318878556957850992640,
  238177043253486538,
  95486304224290563509967256576927954239150911253945643266009251336571781522369898694574080,
  274205840272450378,
  95486304224290563509967256576927954239150911253945643266009241435469318878556957850992640,
  238177043253486538,
  95486304224290563509967256576927954239150911253945643266009251336571781522369898694574080,
  274205840272450378,
  95486304224290563509967256576927954239150911253945643266009251338385022605781658742292480,
  274214638512955978,
  95486304224290563509967256576927954239150911253945643266009241435469171340633165193543680,
  238168249307947978,
  95486304224290563509967256576927954239150911253945643266009251336571633984446106037125120,
  274197046326911818,
  95486304224290563509967256576927954239150911253945643266009248784500606385845245575168000,
  164448058498015948,
  95486304224290563509967256576927954239150911253945643266009246309224990724892010364272640,
  164439264552477388,
  95486304224290563509967256576927954239150911253945643266009248707148243396440456974827520,
  164448058464461518,
  95486304224290563509967256576927954239150911253945643266009246231872627735487221763932160,
  164439264518922958,
  95486304224290563509967256576927954239150911253945643266009248784500606385845245575168000,
  164448058498015948,
  95486304224290563509967256576927954239150911253945643266009248707148243396440456974827520,
  164448058464461518,
  95486304224290563509967256576927954239150911253945643266009248784501196537540416204963840,
  200476855516979788,
  95486304224290563509967256576927954239150911253945643266009246309225580876587180994068480,
  200468061571441228,
  95486304224290563509967256576927954239150911253945643266009248707148833548135627604623360,
  200476855483425358,
  95486304224290563509967256576927954239150911253945643266009246231873217887182392393728000,
  200468061537886798,
  95486304224290563509967256576927954239150911253945643266009241356860960933345157867110400,
  200450467237913548,
  95486304224290563509967256576927954239150911253945643266009246307412192255251628288901120,
  200450469385397068,
  95486304224290563509967256576927954239150911253945643266009241279508597943940369266769920,
  200450467204359118,
  95486304224290563509967256576927954239150911253945643266009246230059829265846839688560640,
  200450469351842638,
  95486304224290563509967256576927954239150911253945643266009241356860960933345157867110400,
  200450467237913548,
  95486304224290563509967256576927954239150911253945643266009246307412192255251628288901120,
  200450469385397068,
  95486304224290563509967256576927954239150911253945643266009241279508597943940369266769920,
  200450467204359118,
  95486304224290563509967256576927954239150911253945643266009246230059829265846839688560640,
  200450469351842638,
  95486304224290563509967256576927954239150911253945643266009248784501196537540416204963840,
  200476855516979788,
  95486304224290563509967256576927954239150911253945643266009248707148833548135627604623360,
  200476855483425358,
  95486304224290563509967256576927954239150911253945643266009241356860813395421365209661440,
  164430466311971788,
  95486304224290563509967256576927954239150911253945643266009246307412044717327835631452160,
  164430468459455308,
  95486304224290563509967256576927954239150911253945643266009241279508450406016576609320960,
  164430466278417358,
  95486304224290563509967256576927954239150911253945643266009246230059681727923047031111680,
  164430468425900878,
  95486304224290563509967256576927954239150911253945643266009251338384732140494191947939840,
  274214636399026888,
  95486304224290563509967256576927954239150911253945643266009248863109116479540956737044480,
  238194635473085128,
  95486304224290563509967256576927954239150911253945643266009251338384732140494191947939840,
  274214636399026888,
  95486304224290563509967256576927954239150911253945643266009251338385027216341777262837760,
  274214638546510408,
  95486304224290563509967256576927954239150911253945643266009248863109411555388542051942400,
  238194637620568648,
  95486304224290563509967256576927954239150911253945643266009241435469323489117076371537920,
  238177043287040968,
  95486304224290563509967256576927954239150911253945643266009251336571786132930017215119360,
  274205840306004808,
  95486304224290563509967256576927954239150911253945643266009241435469323489117076371537920,
  238177043287040968,
  95486304224290563509967256576927954239150911253945643266009251336571786132930017215119360,
  274205840306004808,
  95486304224290563509967256576927954239150911253945643266009251338385027216341777262837760,
  274214638546510408,
  95486304224290563509967256576927954239150911253945643266009241435469175951193283714088960,
  238168249341502408,
  95486304224290563509967256576927954239150911253945643266009251336571638595006224557670400,
  274197046360466248]
def pertQf_mat_cert_6 : List Nat := [95486304224290563509967256576927954239150911253945643266009251299708550645791797647769600,
  273651823884559048,
  95486304224290563509967256576927954239150911253945643266009248824432934984838562436874240,
  237631822958617288,
  95486304224290563509967256576927954239150911253945643266009251338384732140494191947939840,
  274214636399026888,
  95486304224290563509967256576927954239150911253945643266009248863109116479540956737044480,
  238194635473085128,
  95486304224290563509967256576927954239150911253945643266009251299708550645791797647769600,
  273651823884559048,
  95486304224290563509967256576927954239150911253945643266009251338384732140494191947939840,
  274214636399026888,
  95486304224290563509967256576927954239150911253945643266009251299708845721639382962667520,
  273651826032042568,
  95486304224290563509967256576927954239150911253945643266009248824433230060686147751772160,
  237631825106100808,
  95486304224290563509967256576927954239150911253945643266009251338385027216341777262837760,
  274214638546510408,
  95486304224290563509967256576927954239150911253945643266009248863109411555388542051942400,
  238194637620568648,
  95486304224290563509967256576927954239150911253945643266009241396793141994414682071367680,
  237614230772573128,
  95486304224290563509967256576927954239150911253945643266009251297895604638227622914949120,
  273643027791536968,
  95486304224290563509967256576927954239150911253945643266009241435469323489117076371537920,
  238177043287040968,
  95486304224290563509967256576927954239150911253945643266009251336571786132930017215119360,
  274205840306004808,
  95486304224290563509967256576927954239150911253945643266009241396793141994414682071367680,
  237614230772573128,
  95486304224290563509967256576927954239150911253945643266009251297895604638227622914949120,
  273643027791536968,
  95486304224290563509967256576927954239150911253945643266009241435469323489117076371537920,
  238177043287040968,
  95486304224290563509967256576927954239150911253945643266009251336571786132930017215119360,
  274205840306004808,
  95486304224290563509967256576927954239150911253945643266009251299708845721639382962667520,
  273651826032042568,
  95486304224290563509967256576927954239150911253945643266009251338385027216341777262837760,
  274214638546510408,
  95486304224290563509967256576927954239150911253945643266009241396792994456490889413918720,
  237605436827034568,
  95486304224290563509967256576927954239150911253945643266009251297895457100303830257500160,
  273634233845998408,
  95486304224290563509967256576927954239150911253945643266009241435469175951193283714088960,
  238168249341502408,
  95486304224290563509967256576927954239150911253945643266009251336571638595006224557670400,
  274197046360466248,
  95486304224290563509967256576927954239150911253945643266009248784500608691125304835440640,
  165010871012483788,
  95486304224290563509967256576927954239150911253945643266009246309224993030172069624545280,
  165002077066945228,
  95486304224290563509967256576927954239150911253945643266009248707148245701720516235100160,
  165010870978929358,
  95486304224290563509967256576927954239150911253945643266009246231872630040767281024204800,
  165002077033390798,
  95486304224290563509967256576927954239150911253945643266009248784500608691125304835440640,
  165010871012483788,
  95486304224290563509967256576927954239150911253945643266009248707148245701720516235100160,
  165010870978929358,
  95486304224290563509967256576927954239150911253945643266009248784501198842820475465236480,
  201039668031447628,
  95486304224290563509967256576927954239150911253945643266009246309225583181867240254341120,
  201030874085909068,
  95486304224290563509967256576927954239150911253945643266009248707148835853415686864896000,
  201039667997893198,
  95486304224290563509967256576927954239150911253945643266009246231873220192462451654000640,
  201030874052354638,
  95486304224290563509967256576927954239150911253945643266009241356860963238625217127383040,
  201013279752381388,
  95486304224290563509967256576927954239150911253945643266009246307412194560531687549173760,
  201013281899864908,
  95486304224290563509967256576927954239150911253945643266009241279508600249220428527042560,
  201013279718826958,
  95486304224290563509967256576927954239150911253945643266009246230059831571126898948833280,
  201013281866310478,
  95486304224290563509967256576927954239150911253945643266009241356860963238625217127383040,
  201013279752381388,
  95486304224290563509967256576927954239150911253945643266009246307412194560531687549173760,
  201013281899864908,
  95486304224290563509967256576927954239150911253945643266009241279508600249220428527042560,
  201013279718826958,
  95486304224290563509967256576927954239150911253945643266009246230059831571126898948833280,
  201013281866310478,
  95486304224290563509967256576927954239150911253945643266009248784501198842820475465236480,
  201039668031447628,
  95486304224290563509967256576927954239150911253945643266009248707148835853415686864896000,
  201039667997893198,
  95486304224290563509967256576927954239150911253945643266009241356860815700701424469934080,
  164993278826439628,
  95486304224290563509967256576927954239150911253945643266009246307412047022607894891724800,
  164993280973923148,
  95486304224290563509967256576927954239150911253945643266009241279508452711296635869593600,
  164993278792885198,
  95486304224290563509967256576927954239150911253945643266009246230059684033203106291384320,
  164993280940368718,
  95486304224290563509967256576927954239150911253945643266009251299708546035231679127224320,
  273651823851004618,
  95486304224290563509967256576927954239150911253945643266009248824432930374278443916328960,
  237631822925062858,
  95486304224290563509967256576927954239150911253945643266009251338384727529934073427394560,
  274214636365472458,
  95486304224290563509967256576927954239150911253945643266009248863109111868980838216499200,
  238194635439530698,
  95486304224290563509967256576927954239150911253945643266009251299708546035231679127224320,
  273651823851004618,
  95486304224290563509967256576927954239150911253945643266009251338384727529934073427394560,
  274214636365472458,
  95486304224290563509967256576927954239150911253945643266009251299708841111079264442122240,
  273651825998488138,
  95486304224290563509967256576927954239150911253945643266009248824433225450126029231226880,
  237631825072546378,
  95486304224290563509967256576927954239150911253945643266009251338385022605781658742292480,
  274214638512955978,
  95486304224290563509967256576927954239150911253945643266009248863109406944828423531397120,
  238194637587014218,
  95486304224290563509967256576927954239150911253945643266009241396793137383854563550822400,
  237614230739018698,
  95486304224290563509967256576927954239150911253945643266009251297895600027667504394403840,
  273643027757982538,
  95486304224290563509967256576927954239150911253945643266009241435469318878556957850992640,
  238177043253486538,
  95486304224290563509967256576927954239150911253945643266009251336571781522369898694574080,
  274205840272450378,
  95486304224290563509967256576927954239150911253945643266009241396793137383854563550822400,
  237614230739018698,
  95486304224290563509967256576927954239150911253945643266009251297895600027667504394403840,
  273643027757982538,
  95486304224290563509967256576927954239150911253945643266009241435469318878556957850992640,
  238177043253486538,
  95486304224290563509967256576927954239150911253945643266009251336571781522369898694574080,
  274205840272450378,
  95486304224290563509967256576927954239150911253945643266009251299708841111079264442122240,
  273651825998488138,
  95486304224290563509967256576927954239150911253945643266009251338385022605781658742292480,
  274214638512955978,
  95486304224290563509967256576927954239150911253945643266009241396792989845930770893373440,
  237605436793480138,
  95486304224290563509967256576927954239150911253945643266009251297895452489743711736954880,
  273634233812443978,
  95486304224290563509967256576927954239150911253945643266009241435469171340633165193543680,
  238168249307947978,
  95486304224290563509967256576927954239150911253945643266009251336571633984446106037125120,
  274197046326911818,
  95486304224290563509967256576927954239150911253945643266009248707148245701720516235100160,
  165010870978929358,
  95486304224290563509967256576927954239150911253945643266009246231872630040767281024204800,
  165002077033390798,
  95486304224290563509967256576927954239150911253945643266009248784500608691125304835440640,
  165010871012483788,
  95486304224290563509967256576927954239150911253945643266009246309224993030172069624545280,
  165002077066945228,
  95486304224290563509967256576927954239150911253945643266009248707148245701720516235100160,
  165010870978929358,
  95486304224290563509967256576927954239150911253945643266009248784500608691125304835440640,
  165010871012483788,
  95486304224290563509967256576927954239150911253945643266009248707148835853415686864896000,
  201039667997893198,
  95486304224290563509967256576927954239150911253945643266009246231873220192462451654000640,
  201030874052354638,
  95486304224290563509967256576927954239150911253945643266009248784501198842820475465236480,
  201039668031447628,
  95486304224290563509967256576927954239150911253945643266009246309225583181867240254341120,
  201030874085909068,
  95486304224290563509967256576927954239150911253945643266009241279508600249220428527042560,
  201013279718826958,
  95486304224290563509967256576927954239150911253945643266009246230059831571126898948833280,
  201013281866310478,
  95486304224290563509967256576927954239150911253945643266009241356860963238625217127383040,
  201013279752381388,
  95486304224290563509967256576927954239150911253945643266009246307412194560531687549173760,
  201013281899864908,
  95486304224290563509967256576927954239150911253945643266009241279508600249220428527042560,
  201013279718826958,
  95486304224290563509967256576927954239150911253945643266009246230059831571126898948833280,
  201013281866310478,
  95486304224290563509967256576927954239150911253945643266009241356860963238625217127383040,
  201013279752381388,
  95486304224290563509967256576927954239150911253945643266009246307412194560531687549173760,
  201013281899864908,
  95486304224290563509967256576927954239150911253945643266009248707148835853415686864896000,
  201039667997893198,
  95486304224290563509967256576927954239150911253945643266009248784501198842820475465236480,
  201039668031447628,
  95486304224290563509967256576927954239150911253945643266009241279508452711296635869593600,
  164993278792885198,
  95486304224290563509967256576927954239150911253945643266009246230059684033203106291384320,
  164993280940368718,
  95486304224290563509967256576927954239150911253945643266009241356860815700701424469934080,
  164993278826439628,
  95486304224290563509967256576927954239150911253945643266009246307412047022607894891724800,
  164993280973923148,
  95486304224290563509967256576927954239150911253945643266009251338384727529934073427394560,
  274214636365472458,
  95486304224290563509967256576927954239150911253945643266009248863109111868980838216499200,
  238194635439530698,
  95486304224290563509967256576927954239150911253945643266009251338384727529934073427394560,
  274214636365472458,
  95486304224290563509967256576927954239150911253945643266009251338385022605781658742292480,
  274214638512955978,
  95486304224290563509967256576927954239150911253945643266009248863109406944828423531397120,
  238194637587014218,
  95486304224290563509967256576927954239150911253945643266009241435469318878556957850992640,
  238177043253486538,
  95486304224290563509967256576927954239150911253945643266009251336571781522369898694574080,
  274205840272450378,
  95486304224290563509967256576927954239150911253945643266009241435469318878556957850992640,
  238177043253486538,
  95486304224290563509967256576927954239150911253945643266009251336571781522369898694574080,
  274205840272450378,
  95486304224290563509967256576927954239150911253945643266009251338385022605781658742292480,
  274214638512955978,
  95486304224290563509967256576927954239150911253945643266009241435469171340633165193543680,
  238168249307947978,
  95486304224290563509967256576927954239150911253945643266009251336571633984446106037125120,
  274197046326911818,
  95486304224290563509967256576927954239150911253945643266009248784500606385845245575168000,
  164448058498015948,
  95486304224290563509967256576927954239150911253945643266009246309224990724892010364272640,
  164439264552477388,
  95486304224290563509967256576927954239150911253945643266009248707148243396440456974827520,
  164448058464461518,
  95486304224290563509967256576927954239150911253945643266009246231872627735487221763932160,
  164439264518922958,
  95486304224290563509967256576927954239150911253945643266009248784500606385845245575168000,
  164448058498015948,
  95486304224290563509967256576927954239150911253945643266009248707148243396440456974827520,
  164448058464461518,
  95486304224290563509967256576927954239150911253945643266009248784501196537540416204963840,
  200476855516979788,
  95486304224290563509967256576927954239150911253945643266009246309225580876587180994068480,
  200468061571441228,
  95486304224290563509967256576927954239150911253945643266009248707148833548135627604623360,
  200476855483425358,
  95486304224290563509967256576927954239150911253945643266009246231873217887182392393728000,
  200468061537886798,
  95486304224290563509967256576927954239150911253945643266009241356860960933345157867110400,
  200450467237913548,
  95486304224290563509967256576927954239150911253945643266009246307412192255251628288901120,
  200450469385397068,
  95486304224290563509967256576927954239150911253945643266009241279508597943940369266769920,
  200450467204359118,
  95486304224290563509967256576927954239150911253945643266009246230059829265846839688560640,
  200450469351842638,
  95486304224290563509967256576927954239150911253945643266009241356860960933345157867110400,
  200450467237913548,
  95486304224290563509967256576927954239150911253945643266009246307412192255251628288901120,
  200450469385397068,
  95486304224290563509967256576927954239150911253945643266009241279508597943940369266769920,
  200450467204359118,
  95486304224290563509967256576927954239150911253945643266009246230059829265846839688560640,
  200450469351842638,
  95486304224290563509967256576927954239150911253945643266009248784501196537540416204963840,
  200476855516979788,
  95486304224290563509967256576927954239150911253945643266009248707148833548135627604623360,
  200476855483425358,
  95486304224290563509967256576927954239150911253945643266009241356860813395421365209661440,
  164430466311971788,
  95486304224290563509967256576927954239150911253945643266009246307412044717327835631452160,
  164430468459455308,
  95486304224290563509967256576927954239150911253945643266009241279508450406016576609320960,
  164430466278417358,
  95486304224290563509967256576927954239150911253945643266009246230059681727923047031111680,
  164430468425900878,
  95486304224290563509967256576927954239150911253945643266009251338384732140494191947939840,
  274214636399026888,
  95486304224290563509967256576927954239150911253945643266009248863109116479540956737044480,
  238194635473085128,
  95486304224290563509967256576927954239150911253945643266009251338384732140494191947939840,
  274214636399026888,
  95486304224290563509967256576927954239150911253945643266009251338385027216341777262837760,
  274214638546510408,
  95486304224290563509967256576927954239150911253945643266009248863109411555388542051942400,
  238194637620568648,
  95486304224290563509967256576927954239150911253945643266009241435469323489117076371537920,
  238177043287040968,
  95486304224290563509967256576927954239150911253945643266009251336571786132930017215119360,
  274205840306004808,
  95486304224290563509967256576927954239150911253945643266009241435469323489117076371537920,
  238177043287040968,
  95486304224290563509967256576927954239150911253945643266009251336571786132930017215119360,
  274205840306004808,
  95486304224290563509967256576927954239150911253945643266009251338385027216341777262837760,
  274214638546510408,
  95486304224290563509967256576927954239150911253945643266009241435469175951193283714088960,
  238168249341502408,
  95486304224290563509967256576927954239150911253945643266009251336571638595006224557670400,
  274197046360466248,
  95486304224290563509967256576927954239150911253945643266009251299708550645791797647769600,
  273651823884559048,
  95486304224290563509967256576927954239150911253945643266009248824432934984838562436874240,
  237631822958617288,
  95486304224290563509967256576927954239150911253945643266009251338384732140494191947939840,
  274214636399026888,
  95486304224290563509967256576927954239150911253945643266009248863109116479540956737044480,
  238194635473085128,
  95486304224290563509967256576927954239150911253945643266009251299708550645791797647769600,
  273651823884559048,
  95486304224290563509967256576927954239150911253945643266009251338384732140494191947939840,
  274214636399026888,
  95486304224290563509967256576927954239150911253945643266009251299708845721639382962667520,
  273651826032042568,
  95486304224290563509967256576927954239150911253945643266009248824433230060686147751772160,
  237631825106100808,
  95486304224290563509967256576927954239150911253945643266009251338385027216341777262837760,
  274214638546510408,
  95486304224290563509967256576927954239150911253945643266009248863109411555388542051942400,
  238194637620568648,
  95486304224290563509967256576927954239150911253945643266009241396793141994414682071367680,
  237614230772573128,
  95486304224290563509967256576927954239150911253945643266009251297895604638227622914949120,
  273643027791536968,
  95486304224290563509967256576927954239150911253945643266009241435469323489117076371537920,
  238177043287040968,
  95486304224290563509967256576927954239150911253945643266009251336571786132930017215119360,
  274205840306004808,
  95486304224290563509967256576927954239150911253945643266009241396793141994414682071367680,
  237614230772573128,
  95486304224290563509967256576927954239150911253945643266009251297895604638227622914949120,
  273643027791536968,
  95486304224290563509967256576927954239150911253945643266009241435469323489117076371537920,
  238177043287040968,
  95486304224290563509967256576927954239150911253945643266009251336571786132930017215119360,
  274205840306004808,
  95486304224290563509967256576927954239150911253945643266009251299708845721639382962667520,
  273651826032042568,
  95486304224290563509967256576927954239150911253945643266009251338385027216341777262837760,
  274214638546510408,
  95486304224290563509967256576927954239150911253945643266009241396792994456490889413918720,
  237605436827034568,
  95486304224290563509967256576927954239150911253945643266009251297895457100303830257500160,
  273634233845998408,
  95486304224290563509967256576927954239150911253945643266009241435469175951193283714088960,
  238168249341502408,
  95486304224290563509967256576927954239150911253945643266009251336571638595006224557670400,
  274197046360466248,
  95486304224290563509967256576927954239150911253945643266009248784500608691125304835440640,
  165010871012483788,
  95486304224290563509967256576927954239150911253945643266009246309224993030172069624545280,
  165002077066945228,
  95486304224290563509967256576927954239150911253945643266009248707148245701720516235100160,
  165010870978929358,
  95486304224290563509967256576927954239150911253945643266009246231872630040767281024204800,
  165002077033390798,
  95486304224290563509967256576927954239150911253945643266009248784500608691125304835440640,
  165010871012483788,
  95486304224290563509967256576927954239150911253945643266009248707148245701720516235100160,
  165010870978929358,
  95486304224290563509967256576927954239150911253945643266009248784501198842820475465236480,
  201039668031447628,
  95486304224290563509967256576927954239150911253945643266009246309225583181867240254341120,
  201030874085909068,
  95486304224290563509967256576927954239150911253945643266009248707148835853415686864896000,
  201039667997893198,
  95486304224290563509967256576927954239150911253945643266009246231873220192462451654000640,
  201030874052354638,
  95486304224290563509967256576927954239150911253945643266009241356860963238625217127383040,
  201013279752381388,
  95486304224290563509967256576927954239150911253945643266009246307412194560531687549173760,
  201013281899864908,
  95486304224290563509967256576927954239150911253945643266009241279508600249220428527042560,
  201013279718826958,
  95486304224290563509967256576927954239150911253945643266009246230059831571126898948833280,
  201013281866310478,
  95486304224290563509967256576927954239150911253945643266009241356860963238625217127383040,
  201013279752381388,
  95486304224290563509967256576927954239150911253945643266009246307412194560531687549173760,
  201013281899864908,
  95486304224290563509967256576927954239150911253945643266009241279508600249220428527042560,
  201013279718826958,
  95486304224290563509967256576927954239150911253945643266009246230059831571126898948833280,
  201013281866310478,
  95486304224290563509967256576927954239150911253945643266009248784501198842820475465236480,
  201039668031447628,
  95486304224290563509967256576927954239150911253945643266009248707148835853415686864896000,
  201039667997893198,
  95486304224290563509967256576927954239150911253945643266009241356860815700701424469934080,
  164993278826439628,
  95486304224290563509967256576927954239150911253945643266009246307412047022607894891724800,
  164993280973923148,
  95486304224290563509967256576927954239150911253945643266009241279508452711296635869593600,
  164993278792885198,
  95486304224290563509967256576927954239150911253945643266009246230059684033203106291384320,
  164993280940368718,
  95486304224290563509967256576927954239150911253945643266009251299708546035231679127224320,
  273651823851004618,
  95486304224290563509967256576927954239150911253945643266009248824432930374278443916328960,
  237631822925062858,
  95486304224290563509967256576927954239150911253945643266009251338384727529934073427394560,
  274214636365472458,
  95486304224290563509967256576927954239150911253945643266009248863109111868980838216499200,
  238194635439530698,
  95486304224290563509967256576927954239150911253945643266009251299708546035231679127224320,
  273651823851004618,
  95486304224290563509967256576927954239150911253945643266009251338384727529934073427394560,
  274214636365472458,
  95486304224290563509967256576927954239150911253945643266009251299708841111079264442122240,
  273651825998488138,
  95486304224290563509967256576927954239150911253945643266009248824433225450126029231226880,
  237631825072546378]
def pertQf_mat_cert_7 : List Nat := [95486304224290563509967256576927954239150911253945643266009251338385022605781658742292480,
  274214638512955978,
  95486304224290563509967256576927954239150911253945643266009248863109406944828423531397120,
  238194637587014218,
  95486304224290563509967256576927954239150911253945643266009241396793137383854563550822400,
  237614230739018698,
  95486304224290563509967256576927954239150911253945643266009251297895600027667504394403840,
  273643027757982538,
  95486304224290563509967256576927954239150911253945643266009241435469318878556957850992640,
  238177043253486538,
  95486304224290563509967256576927954239150911253945643266009251336571781522369898694574080,
  274205840272450378,
  95486304224290563509967256576927954239150911253945643266009241396793137383854563550822400,
  237614230739018698,
  95486304224290563509967256576927954239150911253945643266009251297895600027667504394403840,
  273643027757982538,
  95486304224290563509967256576927954239150911253945643266009241435469318878556957850992640,
  238177043253486538,
  95486304224290563509967256576927954239150911253945643266009251336571781522369898694574080,
  274205840272450378,
  95486304224290563509967256576927954239150911253945643266009251299708841111079264442122240,
  273651825998488138,
  95486304224290563509967256576927954239150911253945643266009251338385022605781658742292480,
  274214638512955978,
  95486304224290563509967256576927954239150911253945643266009241396792989845930770893373440,
  237605436793480138,
  95486304224290563509967256576927954239150911253945643266009251297895452489743711736954880,
  273634233812443978,
  95486304224290563509967256576927954239150911253945643266009241435469171340633165193543680,
  238168249307947978,
  95486304224290563509967256576927954239150911253945643266009251336571633984446106037125120,
  274197046326911818,
  95486304224290563509967256576927954239150911253945643266009248707148245701720516235100160,
  165010870978929358,
  95486304224290563509967256576927954239150911253945643266009246231872630040767281024204800,
  165002077033390798,
  95486304224290563509967256576927954239150911253945643266009248784500608691125304835440640,
  165010871012483788,
  95486304224290563509967256576927954239150911253945643266009246309224993030172069624545280,
  165002077066945228,
  95486304224290563509967256576927954239150911253945643266009248707148245701720516235100160,
  165010870978929358,
  95486304224290563509967256576927954239150911253945643266009248784500608691125304835440640,
  165010871012483788,
  95486304224290563509967256576927954239150911253945643266009248707148835853415686864896000,
  201039667997893198,
  95486304224290563509967256576927954239150911253945643266009246231873220192462451654000640,
  201030874052354638,
  95486304224290563509967256576927954239150911253945643266009248784501198842820475465236480,
  201039668031447628,
  95486304224290563509967256576927954239150911253945643266009246309225583181867240254341120,
  201030874085909068,
  95486304224290563509967256576927954239150911253945643266009241279508600249220428527042560,
  201013279718826958,
  95486304224290563509967256576927954239150911253945643266009246230059831571126898948833280,
  201013281866310478,
  95486304224290563509967256576927954239150911253945643266009241356860963238625217127383040,
  201013279752381388,
  95486304224290563509967256576927954239150911253945643266009246307412194560531687549173760,
  201013281899864908,
  95486304224290563509967256576927954239150911253945643266009241279508600249220428527042560,
  201013279718826958,
  95486304224290563509967256576927954239150911253945643266009246230059831571126898948833280,
  201013281866310478,
  95486304224290563509967256576927954239150911253945643266009241356860963238625217127383040,
  201013279752381388,
  95486304224290563509967256576927954239150911253945643266009246307412194560531687549173760,
  201013281899864908,
  95486304224290563509967256576927954239150911253945643266009248707148835853415686864896000,
  201039667997893198,
  95486304224290563509967256576927954239150911253945643266009248784501198842820475465236480,
  201039668031447628,
  95486304224290563509967256576927954239150911253945643266009241279508452711296635869593600,
  164993278792885198,
  95486304224290563509967256576927954239150911253945643266009246230059684033203106291384320,
  164993280940368718,
  95486304224290563509967256576927954239150911253945643266009241356860815700701424469934080,
  164993278826439628,
  95486304224290563509967256576927954239150911253945643266009246307412047022607894891724800,
  164993280973923148,
  652074313236947132021588231538170787272834890328656811980978271666311012270335445806838972416,
  959501124331855716936,
  652074313236947132021588231538170787272834890328656811980978271668786287885996399042049867776,
  1107039048124513165896,
  652074313236947132021588231538170787272834890328656811980978271658883371887193326755843670016,
  959393037940799873736,
  652074313236947132021588231538170787272834890328656811980978271668784474349837139696687251456,
  1106966990530475762376,
  652074313236947132021588231538170787272834890328656811980978271658882767424319548238275280896,
  664317190355484975816,
  652074313236947132021588231538170787272834890328656811980978271666308594271302407943907966976,
  664353219152503415496,
  652074313236947132021588231538170787272834890328656811980978271666311012270335445806838972416,
  959501124331855716936,
  652074313236947132021588231538170787272834890328656811980978271668786287885996399042049867776,
  1107039048124513165896,
  652074313236947132021588231538170787272834890328656811980978271658883371887193326755843670016,
  959393037940799873736,
  652074313236947132021588231538170787272834890328656811980978271668784474349837139696687251456,
  1106966990530475762376,
  652074313236947132021588231538170787272834890328656811980978271658882767424319548238275280896,
  664317190355484975816,
  652074313236947132021588231538170787272834890328656811980978271666308594271302407943907966976,
  664353219152503415496,
  652074313236947132021588231538170787272834890328656811980978271658883372477345021926473465856,
  959429066737818837576,
  652074313236947132021588231538170787272834890328656811980978271668784474939988834867317047296,
  1107003019327494726216,
  652074313236947132021588231538170787272834890328656811980978271658883372477345021926473465856,
  959429066737818837576,
  652074313236947132021588231538170787272834890328656811980978271668784474939988834867317047296,
  1107003019327494726216,
  912751260833500898373753390726808398819889986330594591554571869787121442127295091423267782656,
  811819093870124000076,
  912751260833500898373753390726808398819889986330594591554571869787121442127295091423267782656,
  811819093870124000076,
  652074313236947132021588231538170787272834890328656811980978271658882768162009167201562525696,
  811891142945161388616,
  652074313236947132021588231538170787272834890328656811980978271666308595008992026907195211776,
  811927171742179828296,
  652074313236947132021588231538170787272834890328656811980978271658882768162009167201562525696,
  811891142945161388616,
  652074313236947132021588231538170787272834890328656811980978271666308595008992026907195211776,
  811927171742179828296,
  912751260833500898373753390726808398819889986330594591554571869787121441979757167630610333696,
  664281170077466551116,
  912751260833500898373753390726808398819889986330594591554571869787121441979757167630610333696,
  664281170077466551116,
  652074313236947132021588231538170787272834890328656811980978271666311012270335445806838972416,
  959501124331855716936,
  652074313236947132021588231538170787272834890328656811980978271668786287885996399042049867776,
  1107039048124513165896,
  652074313236947132021588231538170787272834890328656811980978271666272336088840743412538802176,
  959501124194450317896,
  652074313236947132021588231538170787272834890328656811980978271668747611704501696647749697536,
  1107039047987107766856,
  652074313236947132021588231538170787272834890328656811980978271658883362444766204025766936576,
  959393037940766327496,
  652074313236947132021588231538170787272834890328656811980978271668784464907410016966610518016,
  1106966990530442216136,
  652074313236947132021588231538170787272834890328656811980978271658806010081776799237166596096,
  959393037803327382216,
  652074313236947132021588231538170787272834890328656811980978271668707112544420612178010177536,
  1106966990393003270856,
  652074313236947132021588231538170787272834890328656811980978271656368182982241389634362802176,
  664317190080639566796,
  652074313236947132021588231538170787272834890328656811980978271666269285444885202575206383616,
  664353218877658530636,
  652074313236947132021588231538170787272834890328656811980978271656290830619251984845762461696,
  664317190080606012366,
  652074313236947132021588231538170787272834890328656811980978271666191933081895797786606043136,
  664353218877624976206,
  652074313236947132021588231538170787272834890328656811980978271666311012270335445806838972416,
  959501124331855716936,
  652074313236947132021588231538170787272834890328656811980978271668786287885996399042049867776,
  1107039048124513165896,
  652074313236947132021588231538170787272834890328656811980978271666272336088840743412538802176,
  959501124194450317896,
  652074313236947132021588231538170787272834890328656811980978271668747611704501696647749697536,
  1107039047987107766856,
  652074313236947132021588231538170787272834890328656811980978271658883362444766204025766936576,
  959393037940766327496,
  652074313236947132021588231538170787272834890328656811980978271668784464907410016966610518016,
  1106966990530442216136,
  652074313236947132021588231538170787272834890328656811980978271658806010081776799237166596096,
  959393037803327382216,
  652074313236947132021588231538170787272834890328656811980978271668707112544420612178010177536,
  1106966990393003270856,
  652074313236947132021588231538170787272834890328656811980978271656368182982241389634362802176,
  664317190080639566796,
  652074313236947132021588231538170787272834890328656811980978271666269285444885202575206383616,
  664353218877658530636,
  652074313236947132021588231538170787272834890328656811980978271656290830619251984845762461696,
  664317190080606012366,
  652074313236947132021588231538170787272834890328656811980978271666191933081895797786606043136,
  664353218877624976206,
  652074313236947132021588231538170787272834890328656811980978271658883363034917899196396732416,
  959429066737785291336,
  652074313236947132021588231538170787272834890328656811980978271668784465497561712137240313856,
  1107003019327461179976,
  652074313236947132021588231538170787272834890328656811980978271658806010671928494407796391936,
  959429066600346346056,
  652074313236947132021588231538170787272834890328656811980978271668707113134572307348639973376,
  1107003019190022234696,
  652074313236947132021588231538170787272834890328656811980978271658883363034917899196396732416,
  959429066737785291336,
  652074313236947132021588231538170787272834890328656811980978271668784465497561712137240313856,
  1107003019327461179976,
  652074313236947132021588231538170787272834890328656811980978271658806010671928494407796391936,
  959429066600346346056,
  652074313236947132021588231538170787272834890328656811980978271668707113134572307348639973376,
  1107003019190022234696,
  652074313236947132021588231538170787272834890328656811980978271658802960025667673511203700736,
  664281161283521012556,
  652074313236947132021588231538170787272834890328656811980978271658802960025667673511203700736,
  664281161283521012556,
  912751260833500898373753390726808398819889986330594591554571869787121442124989811364007510016,
  811819093732718601036,
  912751260833500898373753390726808398819889986330594591554571869787121442124989811364007510016,
  811819093732718601036,
  652074313236947132021588231538170787272834890328656811980978271656368183572393084804992598016,
  811891142670315455436,
  652074313236947132021588231538170787272834890328656811980978271666269286035036897745836179456,
  811927171467334419276,
  652074313236947132021588231538170787272834890328656811980978271656290831209403680016392257536,
  811891142670281901006,
  652074313236947132021588231538170787272834890328656811980978271666191933672047492957235838976,
  811927171467300864846,
  652074313236947132021588231538170787272834890328656811980978271656368183572393084804992598016,
  811891142670315455436,
  652074313236947132021588231538170787272834890328656811980978271666269286035036897745836179456,
  811927171467334419276,
  652074313236947132021588231538170787272834890328656811980978271656290831209403680016392257536,
  811891142670281901006,
  652074313236947132021588231538170787272834890328656811980978271666191933672047492957235838976,
  811927171467300864846,
  652074313236947132021588231538170787272834890328656811980978271658802960173205597303861149696,
  811819085076178461516,
  652074313236947132021588231538170787272834890328656811980978271658802960173205597303861149696,
  811819085076178461516,
  912751260833500898373753390726808398819889986330594591554571869787121441977451887571350061056,
  664281169940061152076,
  912751260833500898373753390726808398819889986330594591554571869787121441977451887571350061056,
  664281169940061152076,
  912751260833500898373753390726808398819889986330594591554571869797066093658591190767156330496,
  1107039056781053305416,
  912751260833500898373753390726808398819889986330594591554571869794590818042930237531945435136,
  959501132988395856456,
  912751260833500898373753390726808398819889986330594591554571869797104769840085893161456500736,
  1107039056918458704456,
  912751260833500898373753390726808398819889986330594591554571869794629494224424939926245605376,
  959501133125801255496,
  912751260833500898373753390726808398819889986330594591554571869784609312573341478965169094656,
  664317198874551550926,
  912751260833500898373753390726808398819889986330594591554571869794510415035985291906012676096,
  664353227671570514766,
  912751260833500898373753390726808398819889986330594591554571869784686664936330883753769435136,
  664317198874585105356,
  912751260833500898373753390726808398819889986330594591554571869794587767398974696694613016576,
  664353227671604069196,
  912751260833500898373753390726808398819889986330594591554571869787124492035866293356573229056,
  959393046597272920776,
  912751260833500898373753390726808398819889986330594591554571869797025594498510106297416810496,
  1106966999186948809416,
  912751260833500898373753390726808398819889986330594591554571869787201844398855698145173569536,
  959393046734711866056,
  912751260833500898373753390726808398819889986330594591554571869797102946861499511086017150976,
  1106966999324387754696,
  912751260833500898373753390726808398819889986330594591554571869797066093658591190767156330496,
  1107039056781053305416,
  912751260833500898373753390726808398819889986330594591554571869794590818042930237531945435136,
  959501132988395856456,
  912751260833500898373753390726808398819889986330594591554571869797104769840085893161456500736,
  1107039056918458704456,
  912751260833500898373753390726808398819889986330594591554571869794629494224424939926245605376,
  959501133125801255496,
  912751260833500898373753390726808398819889986330594591554571869784609312573341478965169094656,
  664317198874551550926,
  912751260833500898373753390726808398819889986330594591554571869794510415035985291906012676096,
  664353227671570514766,
  912751260833500898373753390726808398819889986330594591554571869784686664936330883753769435136,
  664317198874585105356,
  912751260833500898373753390726808398819889986330594591554571869794587767398974696694613016576,
  664353227671604069196,
  912751260833500898373753390726808398819889986330594591554571869787124492035866293356573229056,
  959393046597272920776,
  912751260833500898373753390726808398819889986330594591554571869797025594498510106297416810496,
  1106966999186948809416,
  912751260833500898373753390726808398819889986330594591554571869787201844398855698145173569536,
  959393046734711866056,
  912751260833500898373753390726808398819889986330594591554571869797102946861499511086017150976,
  1106966999324387754696,
  912751260833500898373753390726808398819889986330594591554571869784609313163493174135798890496,
  811891151464227439566,
  912751260833500898373753390726808398819889986330594591554571869794510415626136987076642471936,
  811927180261246403406,
  912751260833500898373753390726808398819889986330594591554571869784686665526482578924399230976,
  811891151464260993996,
  912751260833500898373753390726808398819889986330594591554571869794587767989126391865242812416,
  811927180261279957836,
  912751260833500898373753390726808398819889986330594591554571869784609313163493174135798890496,
  811891151464227439566,
  912751260833500898373753390726808398819889986330594591554571869794510415626136987076642471936,
  811927180261246403406,
  912751260833500898373753390726808398819889986330594591554571869784686665526482578924399230976,
  811891151464260993996,
  912751260833500898373753390726808398819889986330594591554571869794587767989126391865242812416,
  811927180261279957836,
  652074313236947132021588231538170787272834890328656811980978271658802960023362393451943428096,
  664281161146115613516,
  652074313236947132021588231538170787272834890328656811980978271658802960023362393451943428096,
  664281161146115613516,
  912751260833500898373753390726808398819889986330594591554571869787121442127295091423267782656,
  811819093870124000076,
  912751260833500898373753390726808398819889986330594591554571869787121442127295091423267782656,
  811819093870124000076,
  912751260833500898373753390726808398819889986330594591554571869787124492626017988527203024896,
  959429075394291884616,
  912751260833500898373753390726808398819889986330594591554571869797025595088661801468046606336,
  1107003027983967773256,
  912751260833500898373753390726808398819889986330594591554571869787201844989007393315803365376,
  959429075531730829896,
  912751260833500898373753390726808398819889986330594591554571869797102947451651206256646946816,
  1107003028121406718536,
  912751260833500898373753390726808398819889986330594591554571869787124492626017988527203024896,
  959429075394291884616,
  912751260833500898373753390726808398819889986330594591554571869797025595088661801468046606336,
  1107003027983967773256,
  912751260833500898373753390726808398819889986330594591554571869787201844989007393315803365376,
  959429075531730829896,
  912751260833500898373753390726808398819889986330594591554571869797102947451651206256646946816,
  1107003028121406718536,
  652074313236947132021588231538170787272834890328656811980978271658802960170900317244600877056,
  811819084938773062476,
  652074313236947132021588231538170787272834890328656811980978271658802960170900317244600877056,
  811819084938773062476,
  912751260833500898373753390726808398819889986330594591554571869787121441979757167630610333696,
  664281170077466551116,
  912751260833500898373753390726808398819889986330594591554571869787121441979757167630610333696,
  664281170077466551116,
  912751260833500898373753390726808398819889986330594591554571869797104769840085893161456500736,
  1107039056918458704456,
  912751260833500898373753390726808398819889986330594591554571869794629494224424939926245605376,
  959501133125801255496,
  912751260833500898373753390726808398819889986330594591554571869787201249378409042357681913856,
  664317199149430514376,
  912751260833500898373753390726808398819889986330594591554571869794627076225391902063314599936,
  664353227946448954056,
  912751260833500898373753390726808398819889986330594591554571869787201853841282820875250302976,
  959393046734745412296,
  912751260833500898373753390726808398819889986330594591554571869797102956303926633816093884416,
  1106966999324421300936,
  912751260833500898373753390726808398819889986330594591554571869797104769840085893161456500736,
  1107039056918458704456,
  912751260833500898373753390726808398819889986330594591554571869794629494224424939926245605376,
  959501133125801255496,
  912751260833500898373753390726808398819889986330594591554571869787201249378409042357681913856,
  664317199149430514376,
  912751260833500898373753390726808398819889986330594591554571869794627076225391902063314599936,
  664353227946448954056,
  912751260833500898373753390726808398819889986330594591554571869787201853841282820875250302976,
  959393046734745412296,
  912751260833500898373753390726808398819889986330594591554571869797102956303926633816093884416,
  1106966999324421300936,
  912751260833500898373753390726808398819889986330594591554571869787201250116098661320969158656,
  811891151739106927176,
  912751260833500898373753390726808398819889986330594591554571869794627076963081521026601844736,
  811927180536125366856,
  912751260833500898373753390726808398819889986330594591554571869787201250116098661320969158656,
  811891151739106927176,
  912751260833500898373753390726808398819889986330594591554571869794627076963081521026601844736,
  811927180536125366856,
  652074313236947132021588231538170787272834890328656811980978271658802960025667673511203700736,
  664281161283521012556,
  652074313236947132021588231538170787272834890328656811980978271658802960025667673511203700736,
  664281161283521012556,
  912751260833500898373753390726808398819889986330594591554571869787201854431434516045880098816,
  959429075531764376136,
  912751260833500898373753390726808398819889986330594591554571869797102956894078328986723680256,
  1107003028121440264776,
  912751260833500898373753390726808398819889986330594591554571869787201854431434516045880098816,
  959429075531764376136,
  912751260833500898373753390726808398819889986330594591554571869797102956894078328986723680256,
  1107003028121440264776,
  652074313236947132021588231538170787272834890328656811980978271658802960173205597303861149696,
  811819085076178461516,
  652074313236947132021588231538170787272834890328656811980978271658802960173205597303861149696,
  811819085076178461516,
  652074313236947132021588231538170787272834890328656811980978271666311012270335445806838972416,
  959501124331855716936,
  652074313236947132021588231538170787272834890328656811980978271668786287885996399042049867776,
  1107039048124513165896,
  652074313236947132021588231538170787272834890328656811980978271658883371887193326755843670016,
  959393037940799873736,
  652074313236947132021588231538170787272834890328656811980978271668784474349837139696687251456,
  1106966990530475762376,
  652074313236947132021588231538170787272834890328656811980978271658882767424319548238275280896,
  664317190355484975816,
  652074313236947132021588231538170787272834890328656811980978271666308594271302407943907966976,
  664353219152503415496,
  652074313236947132021588231538170787272834890328656811980978271666311012270335445806838972416,
  959501124331855716936,
  652074313236947132021588231538170787272834890328656811980978271668786287885996399042049867776,
  1107039048124513165896,
  652074313236947132021588231538170787272834890328656811980978271658883371887193326755843670016,
  959393037940799873736,
  652074313236947132021588231538170787272834890328656811980978271668784474349837139696687251456,
  1106966990530475762376,
  652074313236947132021588231538170787272834890328656811980978271658882767424319548238275280896,
  664317190355484975816,
  652074313236947132021588231538170787272834890328656811980978271666308594271302407943907966976,
  664353219152503415496,
  652074313236947132021588231538170787272834890328656811980978271658883372477345021926473465856,
  959429066737818837576,
  652074313236947132021588231538170787272834890328656811980978271668784474939988834867317047296,
  1107003019327494726216,
  652074313236947132021588231538170787272834890328656811980978271658883372477345021926473465856,
  959429066737818837576,
  652074313236947132021588231538170787272834890328656811980978271668784474939988834867317047296,
  1107003019327494726216]
def pertQf_mat_cert_8 : List Nat := [912751260833500898373753390726808398819889986330594591554571869787121442127295091423267782656,
  811819093870124000076,
  912751260833500898373753390726808398819889986330594591554571869787121442127295091423267782656,
  811819093870124000076,
  652074313236947132021588231538170787272834890328656811980978271658882768162009167201562525696,
  811891142945161388616,
  652074313236947132021588231538170787272834890328656811980978271666308595008992026907195211776,
  811927171742179828296,
  652074313236947132021588231538170787272834890328656811980978271658882768162009167201562525696,
  811891142945161388616,
  652074313236947132021588231538170787272834890328656811980978271666308595008992026907195211776,
  811927171742179828296,
  912751260833500898373753390726808398819889986330594591554571869787121441979757167630610333696,
  664281170077466551116,
  912751260833500898373753390726808398819889986330594591554571869787121441979757167630610333696,
  664281170077466551116,
  652074313236947132021588231538170787272834890328656811980978271666311012270335445806838972416,
  959501124331855716936,
  652074313236947132021588231538170787272834890328656811980978271668786287885996399042049867776,
  1107039048124513165896,
  652074313236947132021588231538170787272834890328656811980978271666272336088840743412538802176,
  959501124194450317896,
  652074313236947132021588231538170787272834890328656811980978271668747611704501696647749697536,
  1107039047987107766856,
  652074313236947132021588231538170787272834890328656811980978271658883362444766204025766936576,
  959393037940766327496,
  652074313236947132021588231538170787272834890328656811980978271668784464907410016966610518016,
  1106966990530442216136,
  652074313236947132021588231538170787272834890328656811980978271658806010081776799237166596096,
  959393037803327382216,
  652074313236947132021588231538170787272834890328656811980978271668707112544420612178010177536,
  1106966990393003270856,
  652074313236947132021588231538170787272834890328656811980978271656368182982241389634362802176,
  664317190080639566796,
  652074313236947132021588231538170787272834890328656811980978271666269285444885202575206383616,
  664353218877658530636,
  652074313236947132021588231538170787272834890328656811980978271656290830619251984845762461696,
  664317190080606012366,
  652074313236947132021588231538170787272834890328656811980978271666191933081895797786606043136,
  664353218877624976206,
  652074313236947132021588231538170787272834890328656811980978271666311012270335445806838972416,
  959501124331855716936,
  652074313236947132021588231538170787272834890328656811980978271668786287885996399042049867776,
  1107039048124513165896,
  652074313236947132021588231538170787272834890328656811980978271666272336088840743412538802176,
  959501124194450317896,
  652074313236947132021588231538170787272834890328656811980978271668747611704501696647749697536,
  1107039047987107766856,
  652074313236947132021588231538170787272834890328656811980978271658883362444766204025766936576,
  959393037940766327496,
  652074313236947132021588231538170787272834890328656811980978271668784464907410016966610518016,
  1106966990530442216136,
  652074313236947132021588231538170787272834890328656811980978271658806010081776799237166596096,
  959393037803327382216,
  652074313236947132021588231538170787272834890328656811980978271668707112544420612178010177536,
  1106966990393003270856,
  652074313236947132021588231538170787272834890328656811980978271656368182982241389634362802176,
  664317190080639566796,
  652074313236947132021588231538170787272834890328656811980978271666269285444885202575206383616,
  664353218877658530636,
  652074313236947132021588231538170787272834890328656811980978271656290830619251984845762461696,
  664317190080606012366,
  652074313236947132021588231538170787272834890328656811980978271666191933081895797786606043136,
  664353218877624976206,
  652074313236947132021588231538170787272834890328656811980978271658883363034917899196396732416,
  959429066737785291336,
  652074313236947132021588231538170787272834890328656811980978271668784465497561712137240313856,
  1107003019327461179976,
  652074313236947132021588231538170787272834890328656811980978271658806010671928494407796391936,
  959429066600346346056,
  652074313236947132021588231538170787272834890328656811980978271668707113134572307348639973376,
  1107003019190022234696,
  652074313236947132021588231538170787272834890328656811980978271658883363034917899196396732416,
  959429066737785291336,
  652074313236947132021588231538170787272834890328656811980978271668784465497561712137240313856,
  1107003019327461179976,
  652074313236947132021588231538170787272834890328656811980978271658806010671928494407796391936,
  959429066600346346056,
  652074313236947132021588231538170787272834890328656811980978271668707113134572307348639973376,
  1107003019190022234696,
  652074313236947132021588231538170787272834890328656811980978271658802960025667673511203700736,
  664281161283521012556,
  652074313236947132021588231538170787272834890328656811980978271658802960025667673511203700736,
  664281161283521012556,
  912751260833500898373753390726808398819889986330594591554571869787121442124989811364007510016,
  811819093732718601036,
  912751260833500898373753390726808398819889986330594591554571869787121442124989811364007510016,
  811819093732718601036,
  652074313236947132021588231538170787272834890328656811980978271656368183572393084804992598016,
  811891142670315455436,
  652074313236947132021588231538170787272834890328656811980978271666269286035036897745836179456,
  811927171467334419276,
  652074313236947132021588231538170787272834890328656811980978271656290831209403680016392257536,
  811891142670281901006,
  652074313236947132021588231538170787272834890328656811980978271666191933672047492957235838976,
  811927171467300864846,
  652074313236947132021588231538170787272834890328656811980978271656368183572393084804992598016,
  811891142670315455436,
  652074313236947132021588231538170787272834890328656811980978271666269286035036897745836179456,
  811927171467334419276,
  652074313236947132021588231538170787272834890328656811980978271656290831209403680016392257536,
  811891142670281901006,
  652074313236947132021588231538170787272834890328656811980978271666191933672047492957235838976,
  811927171467300864846,
  652074313236947132021588231538170787272834890328656811980978271658802960173205597303861149696,
  811819085076178461516,
  652074313236947132021588231538170787272834890328656811980978271658802960173205597303861149696,
  811819085076178461516,
  912751260833500898373753390726808398819889986330594591554571869787121441977451887571350061056,
  664281169940061152076,
  912751260833500898373753390726808398819889986330594591554571869787121441977451887571350061056,
  664281169940061152076,
  912751260833500898373753390726808398819889986330594591554571869797066093658591190767156330496,
  1107039056781053305416,
  912751260833500898373753390726808398819889986330594591554571869794590818042930237531945435136,
  959501132988395856456,
  912751260833500898373753390726808398819889986330594591554571869797104769840085893161456500736,
  1107039056918458704456,
  912751260833500898373753390726808398819889986330594591554571869794629494224424939926245605376,
  959501133125801255496,
  912751260833500898373753390726808398819889986330594591554571869784609312573341478965169094656,
  664317198874551550926,
  912751260833500898373753390726808398819889986330594591554571869794510415035985291906012676096,
  664353227671570514766,
  912751260833500898373753390726808398819889986330594591554571869784686664936330883753769435136,
  664317198874585105356,
  912751260833500898373753390726808398819889986330594591554571869794587767398974696694613016576,
  664353227671604069196,
  912751260833500898373753390726808398819889986330594591554571869787124492035866293356573229056,
  959393046597272920776,
  912751260833500898373753390726808398819889986330594591554571869797025594498510106297416810496,
  1106966999186948809416,
  912751260833500898373753390726808398819889986330594591554571869787201844398855698145173569536,
  959393046734711866056,
  912751260833500898373753390726808398819889986330594591554571869797102946861499511086017150976,
  1106966999324387754696,
  912751260833500898373753390726808398819889986330594591554571869797066093658591190767156330496,
  1107039056781053305416,
  912751260833500898373753390726808398819889986330594591554571869794590818042930237531945435136,
  959501132988395856456,
  912751260833500898373753390726808398819889986330594591554571869797104769840085893161456500736,
  1107039056918458704456,
  912751260833500898373753390726808398819889986330594591554571869794629494224424939926245605376,
  959501133125801255496,
  912751260833500898373753390726808398819889986330594591554571869784609312573341478965169094656,
  664317198874551550926,
  912751260833500898373753390726808398819889986330594591554571869794510415035985291906012676096,
  664353227671570514766,
  912751260833500898373753390726808398819889986330594591554571869784686664936330883753769435136,
  664317198874585105356,
  912751260833500898373753390726808398819889986330594591554571869794587767398974696694613016576,
  664353227671604069196,
  912751260833500898373753390726808398819889986330594591554571869787124492035866293356573229056,
  959393046597272920776,
  912751260833500898373753390726808398819889986330594591554571869797025594498510106297416810496,
  1106966999186948809416,
  912751260833500898373753390726808398819889986330594591554571869787201844398855698145173569536,
  959393046734711866056,
  912751260833500898373753390726808398819889986330594591554571869797102946861499511086017150976,
  1106966999324387754696,
  912751260833500898373753390726808398819889986330594591554571869784609313163493174135798890496,
  811891151464227439566,
  912751260833500898373753390726808398819889986330594591554571869794510415626136987076642471936,
  811927180261246403406,
  912751260833500898373753390726808398819889986330594591554571869784686665526482578924399230976,
  811891151464260993996,
  912751260833500898373753390726808398819889986330594591554571869794587767989126391865242812416,
  811927180261279957836,
  912751260833500898373753390726808398819889986330594591554571869784609313163493174135798890496,
  811891151464227439566,
  912751260833500898373753390726808398819889986330594591554571869794510415626136987076642471936,
  811927180261246403406,
  912751260833500898373753390726808398819889986330594591554571869784686665526482578924399230976,
  811891151464260993996,
  912751260833500898373753390726808398819889986330594591554571869794587767989126391865242812416,
  811927180261279957836,
  652074313236947132021588231538170787272834890328656811980978271658802960023362393451943428096,
  664281161146115613516,
  652074313236947132021588231538170787272834890328656811980978271658802960023362393451943428096,
  664281161146115613516,
  912751260833500898373753390726808398819889986330594591554571869787121442127295091423267782656,
  811819093870124000076,
  912751260833500898373753390726808398819889986330594591554571869787121442127295091423267782656,
  811819093870124000076,
  912751260833500898373753390726808398819889986330594591554571869787124492626017988527203024896,
  959429075394291884616,
  912751260833500898373753390726808398819889986330594591554571869797025595088661801468046606336,
  1107003027983967773256,
  912751260833500898373753390726808398819889986330594591554571869787201844989007393315803365376,
  959429075531730829896,
  912751260833500898373753390726808398819889986330594591554571869797102947451651206256646946816,
  1107003028121406718536,
  912751260833500898373753390726808398819889986330594591554571869787124492626017988527203024896,
  959429075394291884616,
  912751260833500898373753390726808398819889986330594591554571869797025595088661801468046606336,
  1107003027983967773256,
  912751260833500898373753390726808398819889986330594591554571869787201844989007393315803365376,
  959429075531730829896,
  912751260833500898373753390726808398819889986330594591554571869797102947451651206256646946816,
  1107003028121406718536,
  652074313236947132021588231538170787272834890328656811980978271658802960170900317244600877056,
  811819084938773062476,
  652074313236947132021588231538170787272834890328656811980978271658802960170900317244600877056,
  811819084938773062476,
  912751260833500898373753390726808398819889986330594591554571869787121441979757167630610333696,
  664281170077466551116,
  912751260833500898373753390726808398819889986330594591554571869787121441979757167630610333696,
  664281170077466551116,
  912751260833500898373753390726808398819889986330594591554571869797104769840085893161456500736,
  1107039056918458704456,
  912751260833500898373753390726808398819889986330594591554571869794629494224424939926245605376,
  959501133125801255496,
  912751260833500898373753390726808398819889986330594591554571869787201249378409042357681913856,
  664317199149430514376,
  912751260833500898373753390726808398819889986330594591554571869794627076225391902063314599936,
  664353227946448954056,
  912751260833500898373753390726808398819889986330594591554571869787201853841282820875250302976,
  959393046734745412296,
  912751260833500898373753390726808398819889986330594591554571869797102956303926633816093884416,
  1106966999324421300936,
  912751260833500898373753390726808398819889986330594591554571869797104769840085893161456500736,
  1107039056918458704456,
  912751260833500898373753390726808398819889986330594591554571869794629494224424939926245605376,
  959501133125801255496,
  912751260833500898373753390726808398819889986330594591554571869787201249378409042357681913856,
  664317199149430514376,
  912751260833500898373753390726808398819889986330594591554571869794627076225391902063314599936,
  664353227946448954056,
  912751260833500898373753390726808398819889986330594591554571869787201853841282820875250302976,
  959393046734745412296,
  912751260833500898373753390726808398819889986330594591554571869797102956303926633816093884416,
  1106966999324421300936,
  912751260833500898373753390726808398819889986330594591554571869787201250116098661320969158656,
  811891151739106927176,
  912751260833500898373753390726808398819889986330594591554571869794627076963081521026601844736,
  811927180536125366856,
  912751260833500898373753390726808398819889986330594591554571869787201250116098661320969158656,
  811891151739106927176,
  912751260833500898373753390726808398819889986330594591554571869794627076963081521026601844736,
  811927180536125366856,
  652074313236947132021588231538170787272834890328656811980978271658802960025667673511203700736,
  664281161283521012556,
  652074313236947132021588231538170787272834890328656811980978271658802960025667673511203700736,
  664281161283521012556,
  912751260833500898373753390726808398819889986330594591554571869787201854431434516045880098816,
  959429075531764376136,
  912751260833500898373753390726808398819889986330594591554571869797102956894078328986723680256,
  1107003028121440264776,
  912751260833500898373753390726808398819889986330594591554571869787201854431434516045880098816,
  959429075531764376136,
  912751260833500898373753390726808398819889986330594591554571869797102956894078328986723680256,
  1107003028121440264776,
  652074313236947132021588231538170787272834890328656811980978271658802960173205597303861149696,
  811819085076178461516,
  652074313236947132021588231538170787272834890328656811980978271658802960173205597303861149696,
  811819085076178461516,
  6918659466255958474,
  568038551478724,
  4613388200941756744,
  2305856754352415044,
  4613397003643388104,
  4611708566100009154,
  6918659466423697864,
  4611691107025445314,
  4613405795442491464,
  4611717357899112514,
  6918668266810638664,
  4611708697064530114,
  4613397553365655744,
  6918677475220529344,
  4613406347311718464,
  6918686269166592064,
  54610548966056520,
  18027735526179270,
  54610548966064710,
  18590548040647110,
  54610548966056520,
  18027735526179270,
  54610548966064710,
  18590548040647110,
  54611103049843140,
  91765518555709890,
  54610965644444100,
  91202706041242050,
  54611103049843140,
  91765518555709890,
  54610965644444100,
  91202706041242050,
  54628143298011720,
  18036533766684870,
  54628143298019910,
  18599346281152710,
  54628143298011720,
  18036533766684870,
  54628143298019910,
  18599346281152710,
  54637491327861060,
  91791904687292610,
  54637353922462020,
  91229092172824770,
  54637491327861060,
  91791904687292610,
  54637353922462020,
  91229092172824770,
  516598910595123929796,
  73841068015982240196,
  369060986802467004996,
  221378983014694150596,
  369060995882092339776,
  368952935879316086976,
  369060995882058793536,
  368952935879282540736,
  516598919672602305216,
  73877097087946727616,
  369060986946348409026,
  221451040608831668676,
  369061031064316944576,
  516598946063028854976,
  369061031064316944576,
  516598946063028854976]

/-- Check pertQf_mat. C77 -/
theorem pertQf_mat : isZero kinds [] 2048
    (Wick.matP ⟨1, [⟨71, [8, 10, 9, 11]⟩, ⟨71, [12, 14, 13, 15]⟩], [(true, 8), (true, 10), (false, 11), (false, 9), (true, 12), (true, 14), (false, 15), (false, 13)]⟩ [] [(1/2048, [2, 2], .fluct)] ++ (Prog.scale (-1) (energy_pertQf)))
    (pertQf_mat_cert_0 ++ (pertQf_mat_cert_1 ++ (pertQf_mat_cert_2 ++ (pertQf_mat_cert_3 ++ (pertQf_mat_cert_4 ++ (pertQf_mat_cert_5 ++ (pertQf_mat_cert_6 ++ (pertQf_mat_cert_7 ++ (pertQf_mat_cert_8))))))))) = true := by decide +kernel

end Verif.Cert
