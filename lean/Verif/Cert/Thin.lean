import Verif.Gen.Split
import Verif.Gen.Ccsdt
import Verif.Gen.Ccdq
import Verif.Gen.Qf

/-! Written by `/verif/tools/gen.py`. Terms that are antisymmetric in some of their indices. -/

set_option maxRecDepth 100000

namespace Verif.Cert

open Verif.Ein Verif.Ein.N


open Verif.Ein Verif.Gen

theorem all3_rows : sortRows tamps_antisym_T3 = sortRows (compose allo3 allv3) := by decide +kernel

theorem all4_rows : sortRows tamps_antisym_T4 = sortRows (compose allo4 allv4) := by decide +kernel

def split_ccsdt_t3_cert_0 : List Nat × List Nat := ([417753473088,
  417753473088,
  417719926848,
  417719926848,
  31204079050816,
  31204079050816,
  31204045504576,
  31204045504576,
  128392589552132160,
  128392589552132160,
  128392589518585920,
  128392589518585920,
  164412590478073920,
  164412590478073920,
  164412590444527680,
  164412590444527680,
  2252217567158336,
  2252217567158336,
  2252217533612096,
  2252217533612096,
  417753473088,
  417753473088,
  31204079050816,
  31204079050816,
  128392589552132160,
  128392589552132160,
  164412590478073920,
  164412590478073920,
  2252217567158336,
  2252217567158336],
  [417753473088,
  417753473088,
  415606513728,
  415606513728,
  417752948928,
  417752948928,
  415605465408,
  413459030208,
  413459030208,
  415605465408,
  413458506048,
  413458506048,
  31204079050816,
  31204079050816,
  31201932091456,
  31201932091456,
  31204078526656,
  31204078526656,
  31201931043136,
  31199784607936,
  31199784607936,
  31201931043136,
  31199784083776,
  31199784083776,
  128392589552132160,
  128392589552132160,
  128392587405172800,
  128392587405172800,
  128392589551608000,
  128392589551608000,
  128392587404124480,
  128392585257689280,
  128392585257689280,
  128392587404124480,
  128392585257165120,
  128392585257165120,
  164412590478073920,
  164412590478073920,
  164412588331114560,
  164412588331114560,
  164412590477549760,
  164412590477549760,
  164412588330066240,
  164412586183631040,
  164412586183631040,
  164412588330066240,
  164412586183106880,
  164412586183106880,
  2252217567158336,
  2252217567158336,
  2252215420198976,
  2252215420198976,
  2252217566634176,
  2252217566634176,
  2252215419150656,
  2252213272715456,
  2252213272715456,
  2252215419150656,
  2252213272191296,
  2252213272191296,
  417753473088,
  417753473088,
  31204079050816,
  31204079050816,
  128392589552132160,
  128392589552132160,
  164412590478073920,
  164412590478073920,
  2252217567158336,
  2252217567158336])
def split_ccsdt_t3_cert_1 : List Nat × List Nat := ([31204079050816,
  31204079050816,
  31204045504576,
  31204045504576,
  31204079042626,
  31204079042626,
  31204045488196,
  31204011950146,
  31204011950146,
  31204045488196,
  31204011941956,
  31204011941956,
  30791762190400,
  30791762190400,
  30791728644160,
  30791728644160,
  30791762182210,
  30791762182210,
  30791728627780,
  30791695089730,
  30791695089730,
  30791728627780,
  30791695081540,
  30791695081540,
  163849777963606080,
  163849777963606080,
  163849777930059840,
  163849777930059840,
  163849777963597890,
  163849777963597890,
  163849777930043460,
  163849777896505410,
  163849777896505410,
  163849777930043460,
  163849777896497220,
  163849777896497220,
  164412590478073920,
  164412590478073920,
  164412590444527680,
  164412590444527680,
  164412590478065730,
  164412590478065730,
  164412590444511300,
  164412590410973250,
  164412590410973250,
  164412590444511300,
  164412590410965060,
  164412590410965060,
  162160378347528256,
  162160378347528256,
  162160378313982016,
  162160378313982016,
  162160378347520066,
  162160378347520066,
  162160378313965636,
  162160378280427586,
  162160378280427586,
  162160378313965636,
  162160378280419396,
  162160378280419396,
  31204079050816,
  31204079050816,
  30791762190400,
  30791762190400,
  163849777963606080,
  163849777963606080,
  164412590478073920,
  164412590478073920,
  162160378347528256,
  162160378347528256],
  [31204079050816,
  31204079050816,
  31201932091456,
  31201932091456,
  30791762190400,
  30791762190400,
  30789615231040,
  30789615231040,
  163849777963606080,
  163849777963606080,
  163849775816646720,
  163849775816646720,
  164412590478073920,
  164412590478073920,
  164412588331114560,
  164412588331114560,
  162160378347528256,
  162160378347528256,
  162160376200568896,
  162160376200568896,
  31204079050816,
  31204079050816,
  30791762190400,
  30791762190400,
  163849777963606080,
  163849777963606080,
  164412590478073920,
  164412590478073920,
  162160378347528256,
  162160378347528256])
def split_ccsdt_t3_cert_2 : List Nat × List Nat := ([31204079050816,
  31204079050816,
  31204045504576,
  31204045504576,
  164412590478073920,
  164412590478073920,
  164412590444527680,
  164412590444527680,
  162160790664388672,
  162160790664388672,
  162160790630842432,
  162160790630842432,
  164412590478073920,
  164412590478073920,
  164412590444527680,
  164412590444527680,
  162160790664388672,
  162160790664388672,
  162160790630842432,
  162160790630842432,
  164412590478073920,
  164412590478073920,
  164412590444527680,
  164412590444527680,
  417753473088,
  417753473088,
  417719926848,
  417719926848,
  31204079050816,
  31204079050816,
  164412590478073920,
  164412590478073920,
  162160790664388672,
  162160790664388672,
  164412590478073920,
  164412590478073920,
  162160790664388672,
  162160790664388672,
  164412590478073920,
  164412590478073920,
  417753473088,
  417753473088],
  [31204079050816,
  31204079050816,
  31204078526656,
  31204078526656,
  164412590478073920,
  164412590478073920,
  164412590477549760,
  164412590477549760,
  162160790664388672,
  162160790664388672,
  162160790663864512,
  162160790663864512,
  164412590478073920,
  164412590478073920,
  164412590477549760,
  164412590477549760,
  162160790664388672,
  162160790664388672,
  162160790663864512,
  162160790663864512,
  164412590478073920,
  164412590478073920,
  164412590477549760,
  164412590477549760,
  417753473088,
  417753473088,
  417752948928,
  417752948928,
  31204079050816,
  31204079050816,
  164412590478073920,
  164412590478073920,
  162160790664388672,
  162160790664388672,
  164412590478073920,
  164412590478073920,
  162160790664388672,
  162160790664388672,
  164412590478073920,
  164412590478073920,
  417753473088,
  417753473088])
def split_ccsdt_t3_cert_3 : List Nat × List Nat := ([164412590478073920,
  164412590478073920,
  164412590444527680,
  164412590444527680,
  162160790664388672,
  162160790664388672,
  162160790630842432,
  162160790630842432,
  164412590478073920,
  164412590478073920,
  162160790664388672,
  162160790664388672],
  [164412590478073920,
  164412590478073920,
  162160790664388672,
  162160790664388672,
  164412590478073920,
  164412590478073920,
  162160790664388672,
  162160790664388672])
def split_ccsdt_t3_cert_4 : List Nat × List Nat := ([2283003892736064,
  2283003892736064,
  2283003892727874,
  2283003892727874,
  164412590478073920,
  164412590478073920,
  164412590478065730,
  164412590478065730,
  31204079050816,
  31204079050816,
  31204079042626,
  31204079042626,
  162160790664388672,
  162160790664388672,
  162160790664380482,
  162160790664380482,
  2283003892736064,
  2283003892736064,
  164412590478073920,
  164412590478073920,
  31204079050816,
  31204079050816,
  162160790664388672,
  162160790664388672],
  [2283003892736064,
  2283003892736064,
  164412590478073920,
  164412590478073920,
  31204079050816,
  31204079050816,
  162160790664388672,
  162160790664388672,
  2283003892736064,
  2283003892736064,
  164412590478073920,
  164412590478073920,
  31204079050816,
  31204079050816,
  162160790664388672,
  162160790664388672])
def split_ccsdt_t3_cert_5 : List Nat × List Nat := ([164412590478073920,
  164412590478073920,
  164412590444527680,
  164412590444527680,
  164412590478065730,
  164412590478065730,
  164412590444511300,
  164412590410973250,
  164412590410973250,
  164412590444511300,
  164412590410965060,
  164412590410965060,
  162160790664388672,
  162160790664388672,
  162160790630842432,
  162160790630842432,
  162160790664380482,
  162160790664380482,
  162160790630826052,
  162160790597288002,
  162160790597288002,
  162160790630826052,
  162160790597279812,
  162160790597279812,
  164412590478073920,
  164412590478073920,
  162160790664388672,
  162160790664388672],
  [164412590478073920,
  164412590478073920,
  162160790664388672,
  162160790664388672,
  164412590478073920,
  164412590478073920,
  162160790664388672,
  162160790664388672])
def split_ccsdt_t3_cert_6 : List Nat × List Nat := ([164412590478073920,
  164412590478073920,
  2283003892736064,
  2283003892736064,
  164412590478073920,
  164412590478073920,
  2283003892736064,
  2283003892736064],
  [164412590478073920,
  164412590478073920,
  164412588331114560,
  164412588331114560,
  2283003892736064,
  2283003892736064,
  2283001745776704,
  2283001745776704,
  164412590478073920,
  164412590478073920,
  2283003892736064,
  2283003892736064])
def split_ccsdt_t3_cert_7 : List Nat × List Nat := ([164412590478073920,
  164412590478073920,
  164412590444527680,
  164412590444527680,
  164412590478073920,
  164412590478073920,
  164412590444527680,
  164412590444527680,
  2252217567158336,
  2252217567158336,
  2252217533612096,
  2252217533612096,
  162160378347528256,
  162160378347528256,
  162160378313982016,
  162160378313982016,
  164412590478073920,
  164412590478073920,
  164412590444527680,
  164412590444527680,
  164412590478073920,
  164412590478073920,
  164412590478073920,
  164412590478073920,
  2252217567158336,
  2252217567158336,
  162160378347528256,
  162160378347528256,
  164412590478073920,
  164412590478073920],
  [164412590478073920,
  164412590478073920,
  164412588331114560,
  164412588331114560,
  164412590478073920,
  164412590478073920,
  164412588331114560,
  164412588331114560,
  2252217567158336,
  2252217567158336,
  2252215420198976,
  2252215420198976,
  162160378347528256,
  162160378347528256,
  162160376200568896,
  162160376200568896,
  164412590478073920,
  164412590478073920,
  164412588331114560,
  164412588331114560,
  164412590478073920,
  164412590478073920,
  164412590478073920,
  164412590478073920,
  2252217567158336,
  2252217567158336,
  162160378347528256,
  162160378347528256,
  164412590478073920,
  164412590478073920])
def split_ccsdt_t3_cert_8 : List Nat × List Nat := ([2283003892736064,
  2283003892736064,
  2283003892727874,
  2283003892727874,
  164412590478073920,
  164412590478073920,
  164412590478065730,
  164412590478065730,
  30791762190400,
  30791762190400,
  30791762182210,
  30791762182210,
  2283003892736064,
  2283003892736064,
  164412590478073920,
  164412590478073920,
  30791762190400,
  30791762190400],
  [2283003892736064,
  2283003892736064,
  2283001745776704,
  2283001745776704,
  164412590478073920,
  164412590478073920,
  164412588331114560,
  164412588331114560,
  30791762190400,
  30791762190400,
  30789615231040,
  30789615231040,
  2283003892736064,
  2283003892736064,
  164412590478073920,
  164412590478073920,
  30791762190400,
  30791762190400])
def split_ccsdt_t3_cert_9 : List Nat × List Nat := ([162160790664388672,
  162160790664388672,
  163849777963606080,
  163849777963606080,
  31204079050816,
  31204079050816,
  1720191378268224,
  1720191378268224,
  162160790664388672,
  162160790664388672,
  163849777963606080,
  163849777963606080,
  31204079050816,
  31204079050816,
  1720191378268224,
  1720191378268224],
  [162160790664388672,
  162160790664388672,
  162160790663864512,
  162160790663864512,
  163849777963606080,
  163849777963606080,
  163849777963081920,
  163849777963081920,
  31204079050816,
  31204079050816,
  31204078526656,
  31204078526656,
  1720191378268224,
  1720191378268224,
  1720191377744064,
  1720191377744064,
  162160790664388672,
  162160790664388672,
  163849777963606080,
  163849777963606080,
  31204079050816,
  31204079050816,
  1720191378268224,
  1720191378268224])
def split_ccsdt_t3_cert_10 : List Nat × List Nat := ([164412590478073920,
  164412590478073920,
  2283003892736064,
  2283003892736064,
  164412590478073920,
  164412590478073920,
  2283003892736064,
  2283003892736064],
  [164412590478073920,
  164412590478073920,
  164412588331114560,
  164412588331114560,
  164412590477549760,
  164412590477549760,
  164412588330066240,
  164412586183631040,
  164412586183631040,
  164412588330066240,
  164412586183106880,
  164412586183106880,
  2283003892736064,
  2283003892736064,
  2283001745776704,
  2283001745776704,
  2283003892211904,
  2283003892211904,
  2283001744728384,
  2282999598293184,
  2282999598293184,
  2283001744728384,
  2282999597769024,
  2282999597769024,
  164412590478073920,
  164412590478073920,
  2283003892736064,
  2283003892736064])
def split_ccsdt_t3_cert_11 : List Nat × List Nat := ([2283003892736064,
  2283003892736064,
  2283003892727874,
  2283003892727874,
  164412590478073920,
  164412590478073920,
  164412590478065730,
  164412590478065730,
  2283003892736064,
  2283003892736064,
  164412590478073920,
  164412590478073920],
  [2283003892736064,
  2283003892736064,
  2283001745776704,
  2283001745776704,
  2283003892211904,
  2283003892211904,
  2283001744728384,
  2282999598293184,
  2282999598293184,
  2283001744728384,
  2282999597769024,
  2282999597769024,
  164412590478073920,
  164412590478073920,
  164412588331114560,
  164412588331114560,
  164412590477549760,
  164412590477549760,
  164412588330066240,
  164412586183631040,
  164412586183631040,
  164412588330066240,
  164412586183106880,
  164412586183106880,
  2283003892736064,
  2283003892736064,
  164412590478073920,
  164412590478073920])
def split_ccsdt_t3_cert_12 : List Nat × List Nat := ([162160790664388672,
  162160790664388672,
  162160790630842432,
  162160790630842432,
  162160790664380482,
  162160790664380482,
  162160790630826052,
  162160790597288002,
  162160790597288002,
  162160790630826052,
  162160790597279812,
  162160790597279812,
  164412590478073920,
  164412590478073920,
  164412590444527680,
  164412590444527680,
  164412590478065730,
  164412590478065730,
  164412590444511300,
  164412590410973250,
  164412590410973250,
  164412590444511300,
  164412590410965060,
  164412590410965060,
  162160790664388672,
  162160790664388672,
  164412590478073920,
  164412590478073920],
  [162160790664388672,
  162160790664388672,
  162160790663864512,
  162160790663864512,
  164412590478073920,
  164412590478073920,
  164412590477549760,
  164412590477549760,
  162160790664388672,
  162160790664388672,
  164412590478073920,
  164412590478073920])
def split_ccsdt_t3_cert_13 : List Nat × List Nat := ([2283003892736064,
  2283003892736064,
  2283003892727874,
  2283003892727874,
  31204079050816,
  31204079050816,
  31204079042626,
  31204079042626,
  2283003892736064,
  2283003892736064,
  31204079050816,
  31204079050816],
  [2283003892736064,
  2283003892736064,
  2283003892211904,
  2283003892211904,
  31204079050816,
  31204079050816,
  31204078526656,
  31204078526656,
  2283003892736064,
  2283003892736064,
  31204079050816,
  31204079050816])

theorem split_ccsdt_t3_ok : split_ccsdt_t3.all (Split.ok 6 allo3 allv3) = true := by decide +kernel

theorem split_ccsdt_t3_idx : (split_ccsdt_t3.flatMap Split.idx).isPerm (List.range (Prog.ideal (ccsdt_t3eqns_0 ++ ccsdt_t3eqns_1)).length) = true := by decide +kernel

theorem split_ccsdt_t3_anti : antiOk N.kinds [iₒ, jₒ, kₒ, aᵥ, bᵥ, cᵥ] 48 (Prog.ideal (ccsdt_t3eqns_0 ++ ccsdt_t3eqns_1)) split_ccsdt_t3
    [split_ccsdt_t3_cert_0, split_ccsdt_t3_cert_1, split_ccsdt_t3_cert_2, split_ccsdt_t3_cert_3, split_ccsdt_t3_cert_4, split_ccsdt_t3_cert_5, split_ccsdt_t3_cert_6, split_ccsdt_t3_cert_7, split_ccsdt_t3_cert_8, split_ccsdt_t3_cert_9, split_ccsdt_t3_cert_10, split_ccsdt_t3_cert_11, split_ccsdt_t3_cert_12, split_ccsdt_t3_cert_13] = true := by decide +kernel

def split_ccdq_t4_cert_0 : List Nat × List Nat := ([2283003892736064,
  2283003892736064,
  2282866487337024,
  2282866487337024,
  2283003859189824,
  2283003859189824,
  2282866420244544,
  2282729048391744,
  2282729048391744,
  2282866420244544,
  2282729014845504,
  2282729014845504,
  823350366879766814784,
  823350366879766814784,
  823350366742361415744,
  823350366742361415744,
  823350366879733268544,
  823350366879733268544,
  823350366742294323264,
  823350366604922470464,
  823350366604922470464,
  823350366742294323264,
  823350366604888924224,
  823350366604888924224,
  2283003892736064,
  2283003892736064,
  823350366879766814784,
  823350366879766814784],
  [2283003892736064,
  2283003892736064,
  2274209947197504,
  2274209947197504,
  2283001745776704,
  2283001745776704,
  2274205653278784,
  2265413854699584,
  2265413854699584,
  2274205653278784,
  2265411707740224,
  2265411707740224,
  2283003892211904,
  2283003892211904,
  2274209946673344,
  2274209946673344,
  2283001744728384,
  2282999598293184,
  2274205651706304,
  2256617761677504,
  2265413853651264,
  2274203505795264,
  2265411706167744,
  2256615614718144,
  2282999598293184,
  2283001744728384,
  2274203505795264,
  2265413853651264,
  2282999597769024,
  2282999597769024,
  2274203504746944,
  2256617761153344,
  2265407412773184,
  2265407412773184,
  2265407412249024,
  2256613467234624,
  2256617761677504,
  2274205651706304,
  2256615614718144,
  2265411706167744,
  2256617761153344,
  2274203504746944,
  2256615613669824,
  2256615613669824,
  2256613467234624,
  2265407412249024,
  2256613466710464,
  2256613466710464,
  823350366879766814784,
  823350366879766814784,
  823350358085821276224,
  823350358085821276224,
  823350366877619855424,
  823350366877619855424,
  823350358081527357504,
  823350349289728778304,
  823350349289728778304,
  823350358081527357504,
  823350349287581818944,
  823350349287581818944,
  823350366879766290624,
  823350366879766290624,
  823350358085820752064,
  823350358085820752064,
  823350366877618807104,
  823350366875472371904,
  823350358081525785024,
  823350340493635756224,
  823350349289727729984,
  823350358079379873984,
  823350349287580246464,
  823350340491488796864,
  823350366875472371904,
  823350366877618807104,
  823350358079379873984,
  823350349289727729984,
  823350366875471847744,
  823350366875471847744,
  823350358079378825664,
  823350340493635232064,
  823350349283286851904,
  823350349283286851904,
  823350349283286327744,
  823350340489341313344,
  823350340493635756224,
  823350358081525785024,
  823350340491488796864,
  823350349287580246464,
  823350340493635232064,
  823350358079378825664,
  823350340491487748544,
  823350340491487748544,
  823350340489341313344,
  823350349283286327744,
  823350340489340789184,
  823350340489340789184,
  2283003892736064,
  2283003892736064,
  823350366879766814784,
  823350366879766814784])
def split_ccdq_t4_cert_1 : List Nat × List Nat := ([162160790664388672,
  162160790664388672,
  162160653258989632,
  162160653258989632,
  162160790630842432,
  162160790630842432,
  162160653191897152,
  162160515820044352,
  162160515820044352,
  162160653191897152,
  162160515786498112,
  162160515786498112,
  162160790664380482,
  162160790664380482,
  162160653258981442,
  162160653258981442,
  162160790630826052,
  162160790597288002,
  162160653191872582,
  162160378381090882,
  162160515820027972,
  162160653158342722,
  162160515786473542,
  162160378347544642,
  162160790597288002,
  162160790630826052,
  162160653158342722,
  162160515820027972,
  162160790597279812,
  162160790597279812,
  162160653158326342,
  162160378381082692,
  162160515719389252,
  162160515719389252,
  162160515719381062,
  162160378313990212,
  162160378381090882,
  162160653191872582,
  162160378347544642,
  162160515786473542,
  162160378381082692,
  162160653158326342,
  162160378347528262,
  162160378347528262,
  162160378313990212,
  162160515719381062,
  162160378313982022,
  162160378313982022,
  823350366879766814784,
  823350366879766814784,
  823350366742361415744,
  823350366742361415744,
  823350366879733268544,
  823350366879733268544,
  823350366742294323264,
  823350366604922470464,
  823350366604922470464,
  823350366742294323264,
  823350366604888924224,
  823350366604888924224,
  823350366879766806594,
  823350366879766806594,
  823350366742361407554,
  823350366742361407554,
  823350366879733252164,
  823350366879699714114,
  823350366742294298694,
  823350366467483516994,
  823350366604922454084,
  823350366742260768834,
  823350366604888899654,
  823350366467449970754,
  823350366879699714114,
  823350366879733252164,
  823350366742260768834,
  823350366604922454084,
  823350366879699705924,
  823350366879699705924,
  823350366742260752454,
  823350366467483508804,
  823350366604821815364,
  823350366604821815364,
  823350366604821807174,
  823350366467416416324,
  823350366467483516994,
  823350366742294298694,
  823350366467449970754,
  823350366604888899654,
  823350366467483508804,
  823350366742260752454,
  823350366467449954374,
  823350366467449954374,
  823350366467416416324,
  823350366604821807174,
  823350366467416408134,
  823350366467416408134,
  162160790664388672,
  162160790664388672,
  823350366879766814784,
  823350366879766814784],
  [162160790664388672,
  162160790664388672,
  162151996718850112,
  162151996718850112,
  162160788517429312,
  162160788517429312,
  162151992424931392,
  162143200626352192,
  162143200626352192,
  162151992424931392,
  162143198479392832,
  162143198479392832,
  823350366879766814784,
  823350366879766814784,
  823350358085821276224,
  823350358085821276224,
  823350366877619855424,
  823350366877619855424,
  823350358081527357504,
  823350349289728778304,
  823350349289728778304,
  823350358081527357504,
  823350349287581818944,
  823350349287581818944,
  162160790664388672,
  162160790664388672,
  823350366879766814784,
  823350366879766814784])
def split_ccdq_t4_cert_2 : List Nat × List Nat := ([823350366879766814784,
  823350366879766814784,
  823350366742361415744,
  823350366742361415744,
  11531498049961205824,
  11531498049961205824,
  11531497912555806784,
  11531497912555806784,
  823350366879766814784,
  823350366879766814784,
  11531498049961205824,
  11531498049961205824],
  [823350366879766814784,
  823350366879766814784,
  823350358085821276224,
  823350358085821276224,
  823350366879766290624,
  823350366879766290624,
  823350358085820752064,
  823350358085820752064,
  11531498049961205824,
  11531498049961205824,
  11531489256015667264,
  11531489256015667264,
  11531498049960681664,
  11531498049960681664,
  11531489256015143104,
  11531489256015143104,
  823350366879766814784,
  823350366879766814784,
  11531498049961205824,
  11531498049961205824])
def split_ccdq_t4_cert_3 : List Nat × List Nat := ([821045086820506542144,
  821045086820506542144,
  821045086820472995904,
  821045086820472995904,
  164412590478073920,
  164412590478073920,
  164412590444527680,
  164412590444527680,
  821045086820506542144,
  821045086820506542144,
  164412590478073920,
  164412590478073920],
  [821045086820506542144,
  821045086820506542144,
  821045086820506017984,
  821045086820506017984,
  164412590478073920,
  164412590478073920,
  164412590477549760,
  164412590477549760,
  821045086820506542144,
  821045086820506542144,
  164412590478073920,
  164412590478073920])
def split_ccdq_t4_cert_4 : List Nat × List Nat := ([823350366879766814784,
  823350366879766814784,
  823350366742361415744,
  823350366742361415744,
  823350366879733268544,
  823350366879733268544,
  823350366742294323264,
  823350366604922470464,
  823350366604922470464,
  823350366742294323264,
  823350366604888924224,
  823350366604888924224,
  823350366879766814784,
  823350366879766814784],
  [823350366879766814784,
  823350366879766814784,
  823350358085821276224,
  823350358085821276224,
  823350366879766290624,
  823350366879766290624,
  823350358085820752064,
  823350358085820752064,
  823350366879766814784,
  823350366879766814784])
def split_ccdq_t4_cert_5 : List Nat × List Nat := ([823350366879766814784,
  823350366879766814784,
  823350366742361415744,
  823350366742361415744,
  823350366879766806594,
  823350366879766806594,
  823350366742361407554,
  823350366742361407554,
  823350366879766814784,
  823350366879766814784],
  [823350366879766814784,
  823350366879766814784,
  823350366879766290624,
  823350366879766290624,
  823350366879766814784,
  823350366879766814784])
def split_ccdq_t4_cert_6 : List Nat × List Nat := ([823350366879766814784,
  823350366879766814784,
  823350366742361415744,
  823350366742361415744,
  823350366879733268544,
  823350366879733268544,
  823350366742294323264,
  823350366604922470464,
  823350366604922470464,
  823350366742294323264,
  823350366604888924224,
  823350366604888924224,
  823350366879766806594,
  823350366879766806594,
  823350366742361407554,
  823350366742361407554,
  823350366879733252164,
  823350366879699714114,
  823350366742294298694,
  823350366467483516994,
  823350366604922454084,
  823350366742260768834,
  823350366604888899654,
  823350366467449970754,
  823350366879699714114,
  823350366879733252164,
  823350366742260768834,
  823350366604922454084,
  823350366879699705924,
  823350366879699705924,
  823350366742260752454,
  823350366467483508804,
  823350366604821815364,
  823350366604821815364,
  823350366604821807174,
  823350366467416416324,
  823350366467483516994,
  823350366742294298694,
  823350366467449970754,
  823350366604888899654,
  823350366467483508804,
  823350366742260752454,
  823350366467449954374,
  823350366467449954374,
  823350366467416416324,
  823350366604821807174,
  823350366467416408134,
  823350366467416408134,
  811818900033884659776,
  811818900033884659776,
  811818899896479260736,
  811818899896479260736,
  811818900033851113536,
  811818900033851113536,
  811818899896412168256,
  811818899759040315456,
  811818899759040315456,
  811818899896412168256,
  811818899759006769216,
  811818899759006769216,
  811818900033884651586,
  811818900033884651586,
  811818899896479252546,
  811818899896479252546,
  811818900033851097156,
  811818900033817559106,
  811818899896412143686,
  811818899621601361986,
  811818899759040299076,
  811818899896378613826,
  811818899759006744646,
  811818899621567815746,
  811818900033817559106,
  811818900033851097156,
  811818899896378613826,
  811818899759040299076,
  811818900033817550916,
  811818900033817550916,
  811818899896378597446,
  811818899621601353796,
  811818899758939660356,
  811818899758939660356,
  811818899758939652166,
  811818899621534261316,
  811818899621601361986,
  811818899896412143686,
  811818899621567815746,
  811818899759006744646,
  811818899621601353796,
  811818899896378597446,
  811818899621567799366,
  811818899621567799366,
  811818899621534261316,
  811818899758939652166,
  811818899621534253126,
  811818899621534253126,
  823350366879766814784,
  823350366879766814784,
  811818900033884659776,
  811818900033884659776],
  [823350366879766814784,
  823350366879766814784,
  823350358085821276224,
  823350358085821276224,
  823350366879766290624,
  823350366879766290624,
  823350358085820752064,
  823350358085820752064,
  811818900033884659776,
  811818900033884659776,
  811818891239939121216,
  811818891239939121216,
  811818900033884135616,
  811818900033884135616,
  811818891239938597056,
  811818891239938597056,
  823350366879766814784,
  823350366879766814784,
  811818900033884659776,
  811818900033884659776])
def split_ccdq_t4_cert_7 : List Nat × List Nat := ([811818900033884659776,
  811818900033884659776,
  811818899896479260736,
  811818899896479260736,
  811818900033884651586,
  811818900033884651586,
  811818899896479252546,
  811818899896479252546,
  811818900033884659776,
  811818900033884659776],
  [811818900033884659776,
  811818900033884659776,
  811818891239939121216,
  811818891239939121216,
  811818900033884659776,
  811818900033884659776])
def split_ccdq_t4_cert_8 : List Nat × List Nat := ([823350366879766814784,
  823350366879766814784,
  823350366742361415744,
  823350366742361415744,
  823350366879766806594,
  823350366879766806594,
  823350366742361407554,
  823350366742361407554,
  823350366879766814784,
  823350366879766814784],
  [823350366879766814784,
  823350366879766814784,
  823350358085821276224,
  823350358085821276224,
  823350366877619855424,
  823350366877619855424,
  823350358081527357504,
  823350349289728778304,
  823350349289728778304,
  823350358081527357504,
  823350349287581818944,
  823350349287581818944,
  823350366879766814784,
  823350366879766814784])
def split_ccdq_t4_cert_9 : List Nat × List Nat := ([823350366879766814784,
  823350366879766814784,
  823350366742361415744,
  823350366742361415744,
  823350366879733268544,
  823350366879733268544,
  823350366742294323264,
  823350366604922470464,
  823350366604922470464,
  823350366742294323264,
  823350366604888924224,
  823350366604888924224,
  823350366879766814784,
  823350366879766814784],
  [823350366879766814784,
  823350366879766814784,
  823350358085821276224,
  823350358085821276224,
  823350366877619855424,
  823350366877619855424,
  823350358081527357504,
  823350349289728778304,
  823350349289728778304,
  823350358081527357504,
  823350349287581818944,
  823350349287581818944,
  823350366879766814784,
  823350366879766814784])
def split_ccdq_t4_cert_10 : List Nat × List Nat := ([823350366879766814784,
  823350366879766814784,
  823350366742361415744,
  823350366742361415744,
  823350366879766806594,
  823350366879766806594,
  823350366742361407554,
  823350366742361407554,
  11531498049961205824,
  11531498049961205824,
  11531497912555806784,
  11531497912555806784,
  11531498049961197634,
  11531498049961197634,
  11531497912555798594,
  11531497912555798594,
  823350366879766814784,
  823350366879766814784,
  11531498049961205824,
  11531498049961205824],
  [823350366879766814784,
  823350366879766814784,
  823350358085821276224,
  823350358085821276224,
  823350366877619855424,
  823350366877619855424,
  823350358081527357504,
  823350349289728778304,
  823350349289728778304,
  823350358081527357504,
  823350349287581818944,
  823350349287581818944,
  823350366879766290624,
  823350366879766290624,
  823350358085820752064,
  823350358085820752064,
  823350366877618807104,
  823350366875472371904,
  823350358081525785024,
  823350340493635756224,
  823350349289727729984,
  823350358079379873984,
  823350349287580246464,
  823350340491488796864,
  823350366875472371904,
  823350366877618807104,
  823350358079379873984,
  823350349289727729984,
  823350366875471847744,
  823350366875471847744,
  823350358079378825664,
  823350340493635232064,
  823350349283286851904,
  823350349283286851904,
  823350349283286327744,
  823350340489341313344,
  823350340493635756224,
  823350358081525785024,
  823350340491488796864,
  823350349287580246464,
  823350340493635232064,
  823350358079378825664,
  823350340491487748544,
  823350340491487748544,
  823350340489341313344,
  823350349283286327744,
  823350340489340789184,
  823350340489340789184,
  11531498049961205824,
  11531498049961205824,
  11531489256015667264,
  11531489256015667264,
  11531498047814246464,
  11531498047814246464,
  11531489251721748544,
  11531480459923169344,
  11531480459923169344,
  11531489251721748544,
  11531480457776209984,
  11531480457776209984,
  11531498049960681664,
  11531498049960681664,
  11531489256015143104,
  11531489256015143104,
  11531498047813198144,
  11531498045666762944,
  11531489251720176064,
  11531471663830147264,
  11531480459922121024,
  11531489249574265024,
  11531480457774637504,
  11531471661683187904,
  11531498045666762944,
  11531498047813198144,
  11531489249574265024,
  11531480459922121024,
  11531498045666238784,
  11531498045666238784,
  11531489249573216704,
  11531471663829623104,
  11531480453481242944,
  11531480453481242944,
  11531480453480718784,
  11531471659535704384,
  11531471663830147264,
  11531489251720176064,
  11531471661683187904,
  11531480457774637504,
  11531471663829623104,
  11531489249573216704,
  11531471661682139584,
  11531471661682139584,
  11531471659535704384,
  11531480453480718784,
  11531471659535180224,
  11531471659535180224,
  823350366879766814784,
  823350366879766814784,
  11531498049961205824,
  11531498049961205824])
def split_ccdq_t4_cert_11 : List Nat × List Nat := ([164412590478073920,
  164412590478073920,
  164412590444527680,
  164412590444527680,
  164412590478065730,
  164412590478065730,
  164412590444511300,
  164412590410973250,
  164412590410973250,
  164412590444511300,
  164412590410965060,
  164412590410965060,
  164412590478073920,
  164412590478073920],
  [164412590478073920,
  164412590478073920,
  164412588331114560,
  164412588331114560,
  164412590477549760,
  164412590477549760,
  164412588330066240,
  164412586183631040,
  164412586183631040,
  164412588330066240,
  164412586183106880,
  164412586183106880,
  164412590478073920,
  164412590478073920])

theorem split_ccdq_t4_ok : split_ccdq_t4.all (Split.ok 8 allo4 allv4) = true := by decide +kernel

theorem split_ccdq_t4_idx : (split_ccdq_t4.flatMap Split.idx).isPerm (List.range (Prog.ideal (ccdq_t4eqns_0)).length) = true := by decide +kernel

theorem split_ccdq_t4_anti : antiOk N.kinds [iₒ, jₒ, kₒ, lₒ, aᵥ, bᵥ, cᵥ, dᵥ] 1152 (Prog.ideal (ccdq_t4eqns_0)) split_ccdq_t4
    [split_ccdq_t4_cert_0, split_ccdq_t4_cert_1, split_ccdq_t4_cert_2, split_ccdq_t4_cert_3, split_ccdq_t4_cert_4, split_ccdq_t4_cert_5, split_ccdq_t4_cert_6, split_ccdq_t4_cert_7, split_ccdq_t4_cert_8, split_ccdq_t4_cert_9, split_ccdq_t4_cert_10, split_ccdq_t4_cert_11] = true := by decide +kernel

def split_cub_t4_cert_0 : List Nat × List Nat := ([823350366879766814784,
  823350366879766814784,
  823350366742361415744,
  823350366742361415744,
  823350366879766814784,
  823350366879766814784],
  [823350366879766814784,
  823350366879766814784,
  823350358085821276224,
  823350358085821276224,
  823350366879766290624,
  823350366879766290624,
  823350358085820752064,
  823350358085820752064,
  823350366879766814784,
  823350366879766814784])
def split_cub_t4_cert_1 : List Nat × List Nat := ([821045086820506542144,
  821045086820506542144,
  821045086820472995904,
  821045086820472995904,
  821045086820506542144,
  821045086820506542144],
  [821045086820506542144,
  821045086820506542144,
  821045086820506017984,
  821045086820506017984,
  821045086820506542144,
  821045086820506542144])
def split_cub_t4_cert_2 : List Nat × List Nat := ([823350366879766814784,
  823350366879766814784,
  823350366742361415744,
  823350366742361415744,
  823350366879766806594,
  823350366879766806594,
  823350366742361407554,
  823350366742361407554,
  823350366879766814784,
  823350366879766814784],
  [823350366879766814784,
  823350366879766814784,
  823350366879766290624,
  823350366879766290624,
  823350366879766814784,
  823350366879766814784])

theorem split_cub_t4_ok : split_cub_t4.all (Split.ok 8 allo4 allv4) = true := by decide +kernel

theorem split_cub_t4_idx : (split_cub_t4.flatMap Split.idx).isPerm (List.range (Prog.part [[23, 39, 39, 39]] (wnT2cubed_toT4_0)).length) = true := by decide +kernel

theorem split_cub_t4_anti : antiOk N.kinds [iₒ, jₒ, kₒ, lₒ, aᵥ, bᵥ, cᵥ, dᵥ] 32 (Prog.part [[23, 39, 39, 39]] (wnT2cubed_toT4_0)) split_cub_t4
    [split_cub_t4_cert_0, split_cub_t4_cert_1, split_cub_t4_cert_2] = true := by decide +kernel

def split_quad_t4_cert_0 : List Nat × List Nat := ([11531498049961205824,
  11531498049961205824,
  11531497912555806784,
  11531497912555806784,
  11531498049961205824,
  11531498049961205824],
  [11531498049961205824,
  11531498049961205824,
  11531489256015667264,
  11531489256015667264,
  11531498049960681664,
  11531498049960681664,
  11531489256015143104,
  11531489256015143104,
  11531498049961205824,
  11531498049961205824])
def split_quad_t4_cert_1 : List Nat × List Nat := ([164412590478073920,
  164412590478073920,
  164412590444527680,
  164412590444527680,
  164412590478073920,
  164412590478073920],
  [164412590478073920,
  164412590478073920,
  164412590477549760,
  164412590477549760,
  164412590478073920,
  164412590478073920])
def split_quad_t4_cert_2 : List Nat × List Nat := ([811818900033884659776,
  811818900033884659776,
  811818899896479260736,
  811818899896479260736,
  811818900033884651586,
  811818900033884651586,
  811818899896479252546,
  811818899896479252546,
  811818900033884659776,
  811818900033884659776],
  [811818900033884659776,
  811818900033884659776,
  811818891239939121216,
  811818891239939121216,
  811818900033884659776,
  811818900033884659776])

theorem split_quad_t4_ok : split_quad_t4.all (Split.ok 8 allo4 allv4) = true := by decide +kernel

theorem split_quad_t4_idx : (split_quad_t4.flatMap Split.idx).isPerm (List.range (Prog.part [[23, 39, 39]] (wnT2cubed_toT4_0)).length) = true := by decide +kernel

theorem split_quad_t4_anti : antiOk N.kinds [iₒ, jₒ, kₒ, lₒ, aᵥ, bᵥ, cᵥ, dᵥ] 16 (Prog.part [[23, 39, 39]] (wnT2cubed_toT4_0)) split_quad_t4
    [split_quad_t4_cert_0, split_quad_t4_cert_1, split_quad_t4_cert_2] = true := by decide +kernel

def split_lin_t4_cert_0 : List Nat × List Nat := ([162160790664388672,
  162160790664388672,
  162160653258989632,
  162160653258989632,
  162160790630842432,
  162160790630842432,
  162160653191897152,
  162160515820044352,
  162160515820044352,
  162160653191897152,
  162160515786498112,
  162160515786498112,
  162160790664388672,
  162160790664388672],
  [162160790664388672,
  162160790664388672,
  162151996718850112,
  162151996718850112,
  162160790663864512,
  162160790663864512,
  162151996718325952,
  162151996718325952,
  162160790664388672,
  162160790664388672])
def split_lin_t4_cert_1 : List Nat × List Nat := ([2283003892736064,
  2283003892736064,
  2282866487337024,
  2282866487337024,
  2283003892727874,
  2283003892727874,
  2282866487328834,
  2282866487328834,
  2283003892736064,
  2283003892736064],
  [2283003892736064,
  2283003892736064,
  2274209947197504,
  2274209947197504,
  2283001745776704,
  2283001745776704,
  2274205653278784,
  2265413854699584,
  2265413854699584,
  2274205653278784,
  2265411707740224,
  2265411707740224,
  2283003892736064,
  2283003892736064])

theorem split_lin_t4_ok : split_lin_t4.all (Split.ok 8 allo4 allv4) = true := by decide +kernel

theorem split_lin_t4_idx : (split_lin_t4.flatMap Split.idx).isPerm (List.range (linT3).length) = true := by decide +kernel

theorem split_lin_t4_anti : antiOk N.kinds [iₒ, jₒ, kₒ, lₒ, aᵥ, bᵥ, cᵥ, dᵥ] 24 (linT3) split_lin_t4
    [split_lin_t4_cert_0, split_lin_t4_cert_1] = true := by decide +kernel

end Verif.Cert
