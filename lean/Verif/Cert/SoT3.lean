import Verif.Ein.Ops2
import Verif.Gen.Ccd
import Verif.Gen.Ccsd
import Verif.Gen.Ccsdt
import Verif.Gen.Ccdq
import Verif.Gen.Ucc4
import Verif.Gen.Triples
import Verif.Gen.Qf

/-! Written by `/verif/tools/gen.py`. Checks of einsum programs. -/

set_option maxRecDepth 100000

namespace Verif.Cert

open Verif.Ein Verif.Ein.N


open Verif.Gen

def T3_tamps_cert_0 : List Nat := [417753473088,
  417753473088,
  415606513728,
  415606513728,
  417752948928,
  417752948928,
  415605465408,
  413459030208,
  413459030208,
  415605465408,
  413458506048,
  413458506048,
  417719926848,
  417719926848,
  415572967488,
  415572967488,
  417719402688,
  417719402688,
  415571919168,
  413425483968,
  413425483968,
  415571919168,
  413424959808,
  413424959808,
  417753464898,
  417753464898,
  415606505538,
  415606505538,
  417752940738,
  417752940738,
  415605457218,
  413459022018,
  413459022018,
  415605457218,
  413458497858,
  413458497858,
  417719910468,
  417686372418,
  415572951108,
  415539413058,
  417719386308,
  417685848258,
  415571902788,
  413391929538,
  413425467588,
  415538364738,
  413424943428,
  413391405378,
  417686372418,
  417719910468,
  415539413058,
  415572951108,
  417685848258,
  417719386308,
  415538364738,
  413425467588,
  413391929538,
  415571902788,
  413391405378,
  413424943428,
  417686364228,
  417686364228,
  415539404868,
  415539404868,
  417685840068,
  417685840068,
  415538356548,
  413391921348,
  413391921348,
  415538356548,
  413391397188,
  413391397188,
  30791762190400,
  30791762190400,
  30789615231040,
  30789615231040,
  30791761666240,
  30791761666240,
  30789614182720,
  30787467747520,
  30787467747520,
  30789614182720,
  30787467223360,
  30787467223360,
  30791728644160,
  30791728644160,
  30789581684800,
  30789581684800,
  30791728120000,
  30791728120000,
  30789580636480,
  30787434201280,
  30787434201280,
  30789580636480,
  30787433677120,
  30787433677120,
  30791762182210,
  30791762182210,
  30789615222850,
  30789615222850,
  30791761658050,
  30791761658050,
  30789614174530,
  30787467739330,
  30787467739330,
  30789614174530,
  30787467215170,
  30787467215170,
  30791728627780,
  30791695089730,
  30789581668420,
  30789548130370,
  30791728103620,
  30791694565570,
  30789580620100,
  30787400646850,
  30787434184900,
  30789547082050,
  30787433660740,
  30787400122690,
  30791695089730,
  30791728627780,
  30789548130370,
  30789581668420,
  30791694565570,
  30791728103620,
  30789547082050,
  30787434184900,
  30787400646850,
  30789580620100,
  30787400122690,
  30787433660740,
  30791695081540,
  30791695081540,
  30789548122180,
  30789548122180,
  30791694557380,
  30791694557380,
  30789547073860,
  30787400638660,
  30787400638660,
  30789547073860,
  30787400114500,
  30787400114500,
  417753473088,
  417753473088,
  417753464898,
  417753464898,
  417752948928,
  417752948928,
  417752940738,
  417752940738,
  417753473088,
  417753473088,
  417752948928,
  417752948928,
  417753473088,
  417753473088,
  417753464898,
  417753464898,
  417753473088,
  417753473088,
  30791762190400,
  30791762190400,
  30791728644160,
  30791728644160,
  30789615231040,
  30789615231040,
  30789581684800,
  30789581684800,
  30791762190400,
  30791762190400,
  30789615231040,
  30789615231040,
  30791762190400,
  30791762190400,
  30791728644160,
  30791728644160,
  30791762190400,
  30791762190400]

/-- Check T3_tamps.  -/
theorem T3_tamps : isZero kinds [aᵥ, bᵥ, cᵥ, iₒ, jₒ, kₒ] 4
    (Prog.outs [3, 4, 5, 0, 1, 2] (Prog.through tamps_antisym_T3 (build_approxT3)) ++ (Prog.scale (-1) (build_T3)))
    (T3_tamps_cert_0) = true := by decide +kernel

def T3_wicked_cert_0 : List Nat := [417753473088,
  417753473088,
  415606513728,
  415606513728,
  417752948928,
  417752948928,
  415605465408,
  413459030208,
  413459030208,
  415605465408,
  413458506048,
  413458506048,
  417719926848,
  417719926848,
  415572967488,
  415572967488,
  417719402688,
  417719402688,
  415571919168,
  413425483968,
  413425483968,
  415571919168,
  413424959808,
  413424959808,
  417753464898,
  417753464898,
  415606505538,
  415606505538,
  417752940738,
  417752940738,
  415605457218,
  413459022018,
  413459022018,
  415605457218,
  413458497858,
  413458497858,
  417719910468,
  417686372418,
  415572951108,
  415539413058,
  417719386308,
  417685848258,
  415571902788,
  413391929538,
  413425467588,
  415538364738,
  413424943428,
  413391405378,
  417686372418,
  417719910468,
  415539413058,
  415572951108,
  417685848258,
  417719386308,
  415538364738,
  413425467588,
  413391929538,
  415571902788,
  413391405378,
  413424943428,
  417686364228,
  417686364228,
  415539404868,
  415539404868,
  417685840068,
  417685840068,
  415538356548,
  413391921348,
  413391921348,
  415538356548,
  413391397188,
  413391397188,
  30791762190400,
  30791762190400,
  30789615231040,
  30789615231040,
  30791761666240,
  30791761666240,
  30789614182720,
  30787467747520,
  30787467747520,
  30789614182720,
  30787467223360,
  30787467223360,
  30791728644160,
  30791728644160,
  30789581684800,
  30789581684800,
  30791728120000,
  30791728120000,
  30789580636480,
  30787434201280,
  30787434201280,
  30789580636480,
  30787433677120,
  30787433677120,
  30791762182210,
  30791762182210,
  30789615222850,
  30789615222850,
  30791761658050,
  30791761658050,
  30789614174530,
  30787467739330,
  30787467739330,
  30789614174530,
  30787467215170,
  30787467215170,
  30791728627780,
  30791695089730,
  30789581668420,
  30789548130370,
  30791728103620,
  30791694565570,
  30789580620100,
  30787400646850,
  30787434184900,
  30789547082050,
  30787433660740,
  30787400122690,
  30791695089730,
  30791728627780,
  30789548130370,
  30789581668420,
  30791694565570,
  30791728103620,
  30789547082050,
  30787434184900,
  30787400646850,
  30789580620100,
  30787400122690,
  30787433660740,
  30791695081540,
  30791695081540,
  30789548122180,
  30789548122180,
  30791694557380,
  30791694557380,
  30789547073860,
  30787400638660,
  30787400638660,
  30789547073860,
  30787400114500,
  30787400114500,
  417753473088,
  417753473088,
  417753464898,
  417753464898,
  417752948928,
  417752948928,
  417752940738,
  417752940738,
  417753473088,
  417753473088,
  417752948928,
  417752948928,
  417753473088,
  417753473088,
  417753464898,
  417753464898,
  417753473088,
  417753473088,
  30791762190400,
  30791762190400,
  30791728644160,
  30791728644160,
  30789615231040,
  30789615231040,
  30789581684800,
  30789581684800,
  30791762190400,
  30791762190400,
  30789615231040,
  30789615231040,
  30791762190400,
  30791762190400,
  30791728644160,
  30791728644160,
  30791762190400,
  30791762190400]

/-- Check T3_wicked.  -/
theorem T3_wicked : isZero kinds [aᵥ, bᵥ, cᵥ, iₒ, jₒ, kₒ] 4
    (Prog.outs [3, 4, 5, 0, 1, 2] (Prog.through wicked_antisym_T3 (build_T3_secondO)) ++ (Prog.scale (-1) (build_T3)))
    (T3_wicked_cert_0) = true := by decide +kernel

def T3_ucc4_cert_0 : List Nat := [417753473088,
  417753473088,
  417719926848,
  417719926848,
  417753473088,
  417753473088,
  30791762190400,
  30791762190400,
  30791761666240,
  30791761666240,
  30791762190400,
  30791762190400,
  417753473088,
  417753473088,
  417753464898,
  417753464898,
  417752948928,
  417752948928,
  417752940738,
  417752940738,
  417753473088,
  417753473088,
  417752948928,
  417752948928,
  417753473088,
  417753473088,
  417753464898,
  417753464898,
  417753473088,
  417753473088,
  30791762190400,
  30791762190400,
  30791728644160,
  30791728644160,
  30789615231040,
  30789615231040,
  30789581684800,
  30789581684800,
  30791762190400,
  30791762190400,
  30789615231040,
  30789615231040,
  30791762190400,
  30791762190400,
  30791728644160,
  30791728644160,
  30791762190400,
  30791762190400,
  417753473088,
  417753473088,
  415606513728,
  415606513728,
  417752948928,
  417752948928,
  415605465408,
  413459030208,
  413459030208,
  415605465408,
  413458506048,
  413458506048,
  417719926848,
  417719926848,
  415572967488,
  415572967488,
  417719402688,
  417719402688,
  415571919168,
  413425483968,
  413425483968,
  415571919168,
  413424959808,
  413424959808,
  417753464898,
  417753464898,
  415606505538,
  415606505538,
  417752940738,
  417752940738,
  415605457218,
  413459022018,
  413459022018,
  415605457218,
  413458497858,
  413458497858,
  417719910468,
  417686372418,
  415572951108,
  415539413058,
  417719386308,
  417685848258,
  415571902788,
  413391929538,
  413425467588,
  415538364738,
  413424943428,
  413391405378,
  417686372418,
  417719910468,
  415539413058,
  415572951108,
  417685848258,
  417719386308,
  415538364738,
  413425467588,
  413391929538,
  415571902788,
  413391405378,
  413424943428,
  417686364228,
  417686364228,
  415539404868,
  415539404868,
  417685840068,
  417685840068,
  415538356548,
  413391921348,
  413391921348,
  415538356548,
  413391397188,
  413391397188,
  30791762190400,
  30791762190400,
  30789615231040,
  30789615231040,
  30791761666240,
  30791761666240,
  30789614182720,
  30787467747520,
  30787467747520,
  30789614182720,
  30787467223360,
  30787467223360,
  30791728644160,
  30791728644160,
  30789581684800,
  30789581684800,
  30791728120000,
  30791728120000,
  30789580636480,
  30787434201280,
  30787434201280,
  30789580636480,
  30787433677120,
  30787433677120,
  30791762182210,
  30791762182210,
  30789615222850,
  30789615222850,
  30791761658050,
  30791761658050,
  30789614174530,
  30787467739330,
  30787467739330,
  30789614174530,
  30787467215170,
  30787467215170,
  30791728627780,
  30791695089730,
  30789581668420,
  30789548130370,
  30791728103620,
  30791694565570,
  30789580620100,
  30787400646850,
  30787434184900,
  30789547082050,
  30787433660740,
  30787400122690,
  30791695089730,
  30791728627780,
  30789548130370,
  30789581668420,
  30791694565570,
  30791728103620,
  30789547082050,
  30787434184900,
  30787400646850,
  30789580620100,
  30787400122690,
  30787433660740,
  30791695081540,
  30791695081540,
  30789548122180,
  30789548122180,
  30791694557380,
  30791694557380,
  30789547073860,
  30787400638660,
  30787400638660,
  30789547073860,
  30787400114500,
  30787400114500,
  417753473088,
  417753473088,
  415606513728,
  415606513728,
  417752948928,
  417752948928,
  415605465408,
  413459030208,
  413459030208,
  415605465408,
  413458506048,
  413458506048,
  417719926848,
  417719926848,
  415572967488,
  415572967488,
  417719402688,
  417719402688,
  415571919168,
  413425483968,
  413425483968,
  415571919168,
  413424959808,
  413424959808,
  417753464898,
  417753464898,
  415606505538,
  415606505538,
  417752940738,
  417752940738,
  415605457218,
  413459022018,
  413459022018,
  415605457218,
  413458497858,
  413458497858,
  417719910468,
  417686372418,
  415572951108,
  415539413058,
  417719386308,
  417685848258,
  415571902788,
  413391929538,
  413425467588,
  415538364738,
  413424943428,
  413391405378,
  417686372418,
  417719910468,
  415539413058,
  415572951108,
  417685848258,
  417719386308,
  415538364738,
  413425467588,
  413391929538,
  415571902788,
  413391405378,
  413424943428,
  417686364228,
  417686364228,
  415539404868,
  415539404868,
  417685840068,
  417685840068,
  415538356548,
  413391921348,
  413391921348,
  415538356548,
  413391397188,
  413391397188,
  30791762190400,
  30791762190400,
  30789615231040,
  30789615231040,
  30791761666240,
  30791761666240,
  30789614182720,
  30787467747520,
  30787467747520,
  30789614182720,
  30787467223360,
  30787467223360,
  30791728644160,
  30791728644160,
  30789581684800,
  30789581684800,
  30791728120000,
  30791728120000,
  30789580636480,
  30787434201280,
  30787434201280,
  30789580636480,
  30787433677120,
  30787433677120,
  30791762182210,
  30791762182210,
  30789615222850,
  30789615222850,
  30791761658050,
  30791761658050,
  30789614174530,
  30787467739330,
  30787467739330,
  30789614174530,
  30787467215170,
  30787467215170,
  30791728627780,
  30791695089730,
  30789581668420,
  30789548130370,
  30791728103620,
  30791694565570,
  30789580620100,
  30787400646850,
  30787434184900,
  30789547082050,
  30787433660740,
  30787400122690,
  30791695089730,
  30791728627780,
  30789548130370,
  30789581668420,
  30791694565570,
  30791728103620,
  30789547082050,
  30787434184900,
  30787400646850,
  30789580620100,
  30787400122690,
  30787433660740,
  30791695081540,
  30791695081540,
  30789548122180,
  30789548122180,
  30791694557380,
  30791694557380,
  30789547073860,
  30787400638660,
  30787400638660,
  30789547073860,
  30787400114500,
  30787400114500]

/-- Check T3_ucc4.  -/
theorem T3_ucc4 : isZero kinds [aᵥ, bᵥ, cᵥ, iₒ, jₒ, kₒ] 12
    (t3_resid ++ (Prog.scale (-1) (Prog.outs [3, 4, 5, 0, 1, 2] (Prog.ideal (Prog.part [[15, 47], [23, 39]] (ccsdt_t3eqns))))))
    (T3_ucc4_cert_0) = true := by decide +kernel

def T3_third_cert_0 : List Nat := [1720191378268224,
  1720191378268224,
  1720189231308864,
  1720189231308864,
  1720191377744064,
  1720191377744064,
  1720189230260544,
  1720187083825344,
  1720187083825344,
  1720189230260544,
  1720187083301184,
  1720187083301184,
  1720191344721984,
  1720191344721984,
  1720189197762624,
  1720189197762624,
  1720191344197824,
  1720191344197824,
  1720189196714304,
  1720187050279104,
  1720187050279104,
  1720189196714304,
  1720187049754944,
  1720187049754944,
  1720191378260034,
  1720191378260034,
  1720189231300674,
  1720189231300674,
  1720191377735874,
  1720191377735874,
  1720189230252354,
  1720187083817154,
  1720187083817154,
  1720189230252354,
  1720187083292994,
  1720187083292994,
  1720191344705604,
  1720191311167554,
  1720189197746244,
  1720189164208194,
  1720191344181444,
  1720191310643394,
  1720189196697924,
  1720187016724674,
  1720187050262724,
  1720189163159874,
  1720187049738564,
  1720187016200514,
  1720191311167554,
  1720191344705604,
  1720189164208194,
  1720189197746244,
  1720191310643394,
  1720191344181444,
  1720189163159874,
  1720187050262724,
  1720187016724674,
  1720189196697924,
  1720187016200514,
  1720187049738564,
  1720191311159364,
  1720191311159364,
  1720189164200004,
  1720189164200004,
  1720191310635204,
  1720191310635204,
  1720189163151684,
  1720187016716484,
  1720187016716484,
  1720189163151684,
  1720187016192324,
  1720187016192324,
  162160790664388672,
  162160790664388672,
  162160788517429312,
  162160788517429312,
  162160790663864512,
  162160790663864512,
  162160788516380992,
  162160786369945792,
  162160786369945792,
  162160788516380992,
  162160786369421632,
  162160786369421632,
  162160790630842432,
  162160790630842432,
  162160788483883072,
  162160788483883072,
  162160790630318272,
  162160790630318272,
  162160788482834752,
  162160786336399552,
  162160786336399552,
  162160788482834752,
  162160786335875392,
  162160786335875392,
  162160790664380482,
  162160790664380482,
  162160788517421122,
  162160788517421122,
  162160790663856322,
  162160790663856322,
  162160788516372802,
  162160786369937602,
  162160786369937602,
  162160788516372802,
  162160786369413442,
  162160786369413442,
  162160790630826052,
  162160790597288002,
  162160788483866692,
  162160788450328642,
  162160790630301892,
  162160790596763842,
  162160788482818372,
  162160786302845122,
  162160786336383172,
  162160788449280322,
  162160786335859012,
  162160786302320962,
  162160790597288002,
  162160790630826052,
  162160788450328642,
  162160788483866692,
  162160790596763842,
  162160790630301892,
  162160788449280322,
  162160786336383172,
  162160786302845122,
  162160788482818372,
  162160786302320962,
  162160786335859012,
  162160790597279812,
  162160790597279812,
  162160788450320452,
  162160788450320452,
  162160790596755652,
  162160790596755652,
  162160788449272132,
  162160786302836932,
  162160786302836932,
  162160788449272132,
  162160786302312772,
  162160786302312772,
  2283003892736064,
  2283003892736064,
  2283001745776704,
  2283001745776704,
  2283003892211904,
  2283003892211904,
  2283001744728384,
  2282999598293184,
  2282999598293184,
  2283001744728384,
  2282999597769024,
  2282999597769024,
  2283003859189824,
  2283003859189824,
  2283001712230464,
  2283001712230464,
  2283003858665664,
  2283003858665664,
  2283001711182144,
  2282999564746944,
  2282999564746944,
  2283001711182144,
  2282999564222784,
  2282999564222784,
  2283003892727874,
  2283003892727874,
  2283001745768514,
  2283001745768514,
  2283003892203714,
  2283003892203714,
  2283001744720194,
  2282999598284994,
  2282999598284994,
  2283001744720194,
  2282999597760834,
  2282999597760834,
  2283003859173444,
  2283003825635394,
  2283001712214084,
  2283001678676034,
  2283003858649284,
  2283003825111234,
  2283001711165764,
  2282999531192514,
  2282999564730564,
  2283001677627714,
  2282999564206404,
  2282999530668354,
  2283003825635394,
  2283003859173444,
  2283001678676034,
  2283001712214084,
  2283003825111234,
  2283003858649284,
  2283001677627714,
  2282999564730564,
  2282999531192514,
  2283001711165764,
  2282999530668354,
  2282999564206404,
  2283003825627204,
  2283003825627204,
  2283001678667844,
  2283001678667844,
  2283003825103044,
  2283003825103044,
  2283001677619524,
  2282999531184324,
  2282999531184324,
  2283001677619524,
  2282999530660164,
  2282999530660164,
  162160790664388672,
  162160790664388672,
  162160788517429312,
  162160788517429312,
  126140789737922752,
  126140789737922752,
  126140787590439232,
  126140785444004032,
  162160786369945792,
  162160788516380992,
  126140785443479872,
  126140785443479872,
  162160790630842432,
  162160790630842432,
  162160788483883072,
  162160788483883072,
  126140789704376512,
  126140789704376512,
  126140787556892992,
  126140785410457792,
  162160786336399552,
  162160788482834752,
  126140785409933632,
  126140785409933632,
  162160790664380482,
  162160790664380482,
  162160788517421122,
  162160788517421122,
  126140789737914562,
  126140789737914562,
  126140787590431042,
  126140785443995842,
  162160786369937602,
  162160788516372802,
  126140785443471682,
  126140785443471682,
  162160790630826052,
  162160790597288002,
  162160788483866692,
  162160788450328642,
  126140789704360132,
  126140789670822082,
  126140787556876612,
  126140785376903362,
  162160786336383172,
  162160788449280322,
  126140785409917252,
  126140785376379202,
  162160790597288002,
  162160790630826052,
  162160788450328642,
  162160788483866692,
  126140789670822082,
  126140789704360132,
  126140787523338562,
  126140785410441412,
  162160786302845122,
  162160788482818372,
  126140785376379202,
  126140785409917252,
  162160790597279812,
  162160790597279812,
  162160788450320452,
  162160788450320452,
  126140789670813892,
  126140789670813892,
  126140787523330372,
  126140785376895172,
  162160786302836932,
  162160788449272132,
  126140785376371012,
  126140785376371012,
  1720191378268224,
  1720191378268224,
  1720189231308864,
  1720189231308864,
  1720191377744064,
  1720191377744064,
  1720189230260544,
  1720187083825344,
  1720187083825344,
  1720189230260544,
  1720187083301184,
  1720187083301184,
  1720191344721984,
  1720191344721984,
  1720189197762624,
  1720189197762624,
  1720191344197824,
  1720191344197824,
  1720189196714304,
  1720187050279104,
  1720187050279104,
  1720189196714304,
  1720187049754944,
  1720187049754944,
  1720191378260034,
  1720191378260034,
  1720189231300674,
  1720189231300674,
  1720191377735874,
  1720191377735874,
  1720189230252354,
  1720187083817154,
  1720187083817154,
  1720189230252354,
  1720187083292994,
  1720187083292994,
  1720191344705604,
  1720191311167554,
  1720189197746244,
  1720189164208194,
  1720191344181444,
  1720191310643394,
  1720189196697924,
  1720187016724674,
  1720187050262724,
  1720189163159874,
  1720187049738564,
  1720187016200514,
  1720191311167554,
  1720191344705604,
  1720189164208194,
  1720189197746244,
  1720191310643394,
  1720191344181444,
  1720189163159874,
  1720187050262724,
  1720187016724674,
  1720189196697924,
  1720187016200514,
  1720187049738564,
  1720191311159364,
  1720191311159364,
  1720189164200004,
  1720189164200004,
  1720191310635204,
  1720191310635204,
  1720189163151684,
  1720187016716484,
  1720187016716484,
  1720189163151684,
  1720187016192324,
  1720187016192324,
  162160790664388672,
  162160790664388672,
  162160788517429312,
  162160788517429312,
  162160790663864512,
  162160790663864512,
  162160788516380992,
  162160786369945792,
  162160786369945792,
  162160788516380992,
  162160786369421632,
  162160786369421632,
  162160790630842432,
  162160790630842432,
  162160788483883072,
  162160788483883072,
  162160790630318272,
  162160790630318272,
  162160788482834752,
  162160786336399552,
  162160786336399552,
  162160788482834752,
  162160786335875392,
  162160786335875392,
  162160790664380482,
  162160790664380482,
  162160788517421122,
  162160788517421122,
  162160790663856322,
  162160790663856322,
  162160788516372802,
  162160786369937602,
  162160786369937602,
  162160788516372802,
  162160786369413442,
  162160786369413442,
  162160790630826052,
  162160790597288002,
  162160788483866692,
  162160788450328642]
def T3_third_cert_1 : List Nat := [162160790630301892,
  162160790596763842,
  162160788482818372,
  162160786302845122,
  162160786336383172,
  162160788449280322,
  162160786335859012,
  162160786302320962,
  162160790597288002,
  162160790630826052,
  162160788450328642,
  162160788483866692,
  162160790596763842,
  162160790630301892,
  162160788449280322,
  162160786336383172,
  162160786302845122,
  162160788482818372,
  162160786302320962,
  162160786335859012,
  162160790597279812,
  162160790597279812,
  162160788450320452,
  162160788450320452,
  162160790596755652,
  162160790596755652,
  162160788449272132,
  162160786302836932,
  162160786302836932,
  162160788449272132,
  162160786302312772,
  162160786302312772,
  2283003892736064,
  2283003892736064,
  2283001745776704,
  2283001745776704,
  2283003892211904,
  2283003892211904,
  2283001744728384,
  2282999598293184,
  2282999598293184,
  2283001744728384,
  2282999597769024,
  2282999597769024,
  2283003859189824,
  2283003859189824,
  2283001712230464,
  2283001712230464,
  2283003858665664,
  2283003858665664,
  2283001711182144,
  2282999564746944,
  2282999564746944,
  2283001711182144,
  2282999564222784,
  2282999564222784,
  2283003892727874,
  2283003892727874,
  2283001745768514,
  2283001745768514,
  2283003892203714,
  2283003892203714,
  2283001744720194,
  2282999598284994,
  2282999598284994,
  2283001744720194,
  2282999597760834,
  2282999597760834,
  2283003859173444,
  2283003825635394,
  2283001712214084,
  2283001678676034,
  2283003858649284,
  2283003825111234,
  2283001711165764,
  2282999531192514,
  2282999564730564,
  2283001677627714,
  2282999564206404,
  2282999530668354,
  2283003825635394,
  2283003859173444,
  2283001678676034,
  2283001712214084,
  2283003825111234,
  2283003858649284,
  2283001677627714,
  2282999564730564,
  2282999531192514,
  2283001711165764,
  2282999530668354,
  2282999564206404,
  2283003825627204,
  2283003825627204,
  2283001678667844,
  2283001678667844,
  2283003825103044,
  2283003825103044,
  2283001677619524,
  2282999531184324,
  2282999531184324,
  2283001677619524,
  2282999530660164,
  2282999530660164,
  162160790664388672,
  162160790664388672,
  162160788517429312,
  162160788517429312,
  126140789737922752,
  126140789737922752,
  126140787590439232,
  126140785444004032,
  162160786369945792,
  162160788516380992,
  126140785443479872,
  126140785443479872,
  162160790630842432,
  162160790630842432,
  162160788483883072,
  162160788483883072,
  126140789704376512,
  126140789704376512,
  126140787556892992,
  126140785410457792,
  162160786336399552,
  162160788482834752,
  126140785409933632,
  126140785409933632,
  162160790664380482,
  162160790664380482,
  162160788517421122,
  162160788517421122,
  126140789737914562,
  126140789737914562,
  126140787590431042,
  126140785443995842,
  162160786369937602,
  162160788516372802,
  126140785443471682,
  126140785443471682,
  162160790630826052,
  162160790597288002,
  162160788483866692,
  162160788450328642,
  126140789704360132,
  126140789670822082,
  126140787556876612,
  126140785376903362,
  162160786336383172,
  162160788449280322,
  126140785409917252,
  126140785376379202,
  162160790597288002,
  162160790630826052,
  162160788450328642,
  162160788483866692,
  126140789670822082,
  126140789704360132,
  126140787523338562,
  126140785410441412,
  162160786302845122,
  162160788482818372,
  126140785376379202,
  126140785409917252,
  162160790597279812,
  162160790597279812,
  162160788450320452,
  162160788450320452,
  126140789670813892,
  126140789670813892,
  126140787523330372,
  126140785376895172,
  162160786302836932,
  162160788449272132,
  126140785376371012,
  126140785376371012]

/-- Check T3_third.  -/
theorem T3_third : isZero kinds [aᵥ, bᵥ, cᵥ, iₒ, jₒ, kₒ] 8
    (Prog.outs [3, 4, 5, 0, 1, 2] (Prog.through tamps_antisym_T3 (build_T3_thirdO)) ++ (Prog.scale (-1) (Prog.outs [3, 4, 5, 0, 1, 2] (Prog.ideal (Prog.part [[23, 39, 39]] (ccsdt_t3eqns))))))
    (T3_third_cert_0 ++ (T3_third_cert_1)) = true := by decide +kernel

end Verif.Cert
