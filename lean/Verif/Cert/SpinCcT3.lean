import Verif.Ein.Spin
import Verif.Cert.Thin
import Verif.Gen.SiCcsdtT3_0
import Verif.Gen.SiCcsdtT3_1
import Verif.Gen.SiCcsdtT3_2
import Verif.Gen.SiCcsdtT3_3

/-! Written by `/verif/tools/gen.py`. Checks of einsum programs. -/

set_option maxRecDepth 100000

namespace Verif.Cert

open Verif.Ein Verif.Ein.N


open Verif.Gen

def ccsdt_t3_aaaaaa_cert_0 : List Nat := [417753473088,
  417753473088,
  417753464898,
  417753464898,
  417719910468,
  417686372418,
  31204079050816,
  31204079050816,
  31204079042626,
  31204079042626,
  31204045488196,
  31204011950146,
  128392589552132160,
  128392589552132160,
  163849777963606080,
  163849777963606080,
  128392589552123970,
  128392589552123970,
  163849777963597890,
  163849777963597890,
  128392589518569540,
  128392589485031490,
  163849777930043460,
  163849777896505410,
  164412590478073920,
  164412590478073920,
  163849777963606080,
  163849777963606080,
  127829777037664320,
  127829777037664320,
  164412590478065730,
  164412590478065730,
  163849777963597890,
  163849777963597890,
  127829777037656130,
  127829777037656130,
  164412590444511300,
  164412590410973250,
  163849777930043460,
  163849777896505410,
  127829777004101700,
  127829776970563650,
  2252217567158336,
  2252217567158336,
  2252217567150146,
  2252217567150146,
  2252217533595716,
  2252217500057666,
  31204079050816,
  31204079050816,
  31204078526656,
  31204078526656,
  31201931043136,
  31199784607936,
  30791762190400,
  30791762190400,
  30791761666240,
  30791761666240,
  30789614182720,
  30787467747520,
  163849777963606080,
  163849777963606080,
  128392589552132160,
  128392589552132160,
  163849777963081920,
  163849777963081920,
  128392589551608000,
  128392589551608000,
  163849775815598400,
  163849773669163200,
  128392587404124480,
  128392585257689280,
  164412590478073920,
  164412590478073920,
  128392589552132160,
  128392589552132160,
  127829777037664320,
  127829777037664320,
  164412590477549760,
  164412590477549760,
  128392589551608000,
  128392589551608000,
  127829777037140160,
  127829777037140160,
  164412588330066240,
  164412586183631040,
  128392587404124480,
  128392585257689280,
  127829774889656640,
  127829772743221440,
  162160378347528256,
  162160378347528256,
  162160378347004096,
  162160378347004096,
  162160376199520576,
  162160374053085376,
  31204079050816,
  31204079050816,
  31204079042626,
  31204079042626,
  31204045488196,
  31204011950146,
  31201932091456,
  31201932091456,
  31201932083266,
  31201932083266,
  31201898528836,
  31201864990786,
  31199784607936,
  31201931043136,
  31199784599746,
  31201931034946,
  31199751045316,
  31201863942466,
  164412590478073920,
  164412590478073920,
  164412590478065730,
  164412590478065730,
  164412590444511300,
  164412590410973250,
  164412588331114560,
  164412588331114560,
  164412588331106370,
  164412588331106370,
  164412588297551940,
  164412588264013890,
  164412586183631040,
  164412588330066240,
  164412586183622850,
  164412588330058050,
  164412586150068420,
  164412588262965570,
  162160790664388672,
  162160790664388672,
  162160790664388672,
  162160790664388672,
  162160790664380482,
  162160790664380482,
  162160790664380482,
  162160790664380482,
  162160790630826052,
  162160790597288002,
  162160790630826052,
  162160790597288002,
  162160788517429312,
  162160788517429312,
  162160788517429312,
  162160788517429312,
  162160788517421122,
  162160788517421122,
  162160788517421122,
  162160788517421122,
  162160788483866692,
  162160788450328642,
  162160788483866692,
  162160788450328642,
  162160786369945792,
  162160788516380992,
  162160786369945792,
  162160788516380992,
  162160786369937602,
  162160788516372802,
  162160786369937602,
  162160788516372802,
  162160786336383172,
  162160788449280322,
  162160786336383172,
  162160788449280322,
  164412590478073920,
  164412590478073920,
  127829777037664320,
  127829777037664320,
  164412590478065730,
  164412590478065730,
  127829777037656130,
  127829777037656130,
  164412590444511300,
  164412590410973250,
  127829777004101700,
  127829776970563650,
  164412588331114560,
  164412588331114560,
  127829774890704960,
  127829774890704960,
  164412588331106370,
  164412588331106370,
  127829774890696770,
  127829774890696770,
  164412588297551940,
  164412588264013890,
  127829774857142340,
  127829774823604290,
  164412586183631040,
  164412588330066240,
  127829772743221440,
  127829774889656640,
  164412586183622850,
  164412588330058050,
  127829772743213250,
  127829774889648450,
  164412586150068420,
  164412588262965570,
  127829772709658820,
  127829774822555970,
  162160790664388672,
  162160790664388672,
  162160790664380482,
  162160790664380482,
  162160790630826052,
  162160790597288002,
  162160788517429312,
  162160788517429312,
  162160788517421122,
  162160788517421122,
  162160788483866692,
  162160788450328642,
  162160786369945792,
  162160788516380992,
  162160786369937602,
  162160788516372802,
  162160786336383172,
  162160788449280322,
  164412590478073920,
  164412590478073920,
  164412590478073920,
  164412590478073920,
  128392589552132160,
  128392589552132160,
  164412590478065730,
  164412590478065730,
  164412590478065730,
  164412590478065730,
  128392589552123970,
  128392589552123970,
  164412590444511300,
  164412590410973250,
  164412590444511300,
  164412590410973250,
  128392589518569540,
  128392589485031490,
  164412588331114560,
  164412588331114560,
  164412588331114560,
  164412588331114560,
  128392587405172800,
  128392587405172800,
  164412588331106370,
  164412588331106370,
  164412588331106370,
  164412588331106370,
  128392587405164610,
  128392587405164610,
  164412588297551940,
  164412588264013890,
  164412588297551940,
  164412588264013890,
  128392587371610180,
  128392587338072130,
  164412586183631040,
  164412588330066240,
  164412586183631040,
  164412588330066240,
  128392585257689280,
  128392587404124480,
  164412586183622850,
  164412588330058050,
  164412586183622850,
  164412588330058050,
  128392585257681090,
  128392587404116290,
  164412586150068420,
  164412588262965570,
  164412586150068420,
  164412588262965570,
  128392585224126660,
  128392587337023810,
  417753473088,
  417753473088,
  417753464898,
  417753464898,
  417719910468,
  417686372418,
  415606513728,
  415606513728,
  415606505538,
  415606505538,
  415572951108,
  415539413058,
  413459030208,
  415605465408,
  413459022018,
  415605457218,
  413425467588,
  415538364738,
  164412590478073920,
  164412590478073920,
  164412590478065730,
  164412590478065730,
  164412590444511300,
  164412590410973250,
  164412588331114560,
  164412588331114560,
  164412588331106370,
  164412588331106370,
  164412588297551940,
  164412588264013890,
  163849777963081920,
  163849777963081920,
  163849777963073730,
  163849777963073730,
  163849777929519300,
  163849777895981250,
  163849775815598400,
  163849773669163200,
  163849775815590210,
  163849773669155010,
  163849775782035780,
  163849773602062530,
  164412586183631040,
  164412588330066240,
  164412586183622850,
  164412588330058050,
  164412586150068420,
  164412588262965570,
  163849773668639040,
  163849773668639040,
  163849773668630850,
  163849773668630850,
  163849773635076420,
  163849773601538370,
  162160790664388672,
  162160790664388672,
  162160790664380482,
  162160790664380482,
  162160790630826052,
  162160790597288002,
  162160788517429312,
  162160788517429312,
  162160788517421122,
  162160788517421122,
  162160788483866692,
  162160788450328642,
  162160790663864512,
  162160790663864512,
  162160790663856322,
  162160790663856322,
  162160790630301892,
  162160790596763842,
  162160788516380992,
  162160786369945792,
  162160788516372802,
  162160786369937602,
  162160788482818372,
  162160786302845122,
  162160786369945792,
  162160788516380992,
  162160786369937602,
  162160788516372802,
  162160786336383172,
  162160788449280322,
  162160786369421632,
  162160786369421632,
  162160786369413442,
  162160786369413442,
  162160786335859012,
  162160786302320962,
  2283003892736064,
  2283003892736064,
  2283003859189824,
  2283003859189824,
  2283003825635394,
  2283003859173444,
  2283001745776704,
  2283001745776704,
  2283001712230464,
  2283001712230464,
  2283001678676034,
  2283001712214084,
  1720191377744064,
  1720191377744064,
  1720191344197824,
  1720191344197824,
  1720191310643394,
  1720191344181444,
  1720189230260544,
  1720187083825344,
  1720189196714304,
  1720187050279104,
  1720189163159874,
  1720187050262724,
  2282999598293184,
  2283001744728384,
  2282999564746944,
  2283001711182144,
  2282999531192514,
  2283001711165764,
  1720187083301184,
  1720187083301184,
  1720187049754944,
  1720187049754944]
def ccsdt_t3_aaaaaa_cert_1 : List Nat := [1720187016200514,
  1720187049738564,
  164412590478073920,
  164412590478073920,
  164412590478073920,
  164412590478073920,
  164412590444527680,
  164412590444527680,
  164412590444527680,
  164412590444527680,
  164412590410973250,
  164412590444511300,
  164412590410973250,
  164412590444511300,
  128392587405172800,
  128392587405172800,
  164412588331114560,
  164412588331114560,
  128392587371626560,
  128392587371626560,
  164412588297568320,
  164412588297568320,
  128392587338072130,
  128392587371610180,
  164412588264013890,
  164412588297551940,
  164412590477549760,
  164412590477549760,
  164412590477549760,
  164412590477549760,
  164412590444003520,
  164412590444003520,
  164412590444003520,
  164412590444003520,
  164412590410449090,
  164412590443987140,
  164412590410449090,
  164412590443987140,
  164412588330066240,
  164412586183631040,
  164412588330066240,
  164412586183631040,
  164412588296520000,
  164412586150084800,
  164412588296520000,
  164412586150084800,
  164412588262965570,
  164412586150068420,
  164412588262965570,
  164412586150068420,
  128392585257689280,
  128392587404124480,
  164412586183631040,
  164412588330066240,
  128392585224143040,
  128392587370578240,
  164412586150084800,
  164412588296520000,
  128392585190588610,
  128392587370561860,
  164412586116530370,
  164412588296503620,
  128392585257165120,
  128392585257165120,
  164412586183106880,
  164412586183106880,
  128392585223618880,
  128392585223618880,
  164412586149560640,
  164412586149560640,
  128392585190064450,
  128392585223602500,
  164412586116006210,
  164412586149544260,
  31204079050816,
  31204079050816,
  31204045504576,
  31204045504576,
  31204011950146,
  31204045488196,
  31201932091456,
  31201932091456,
  31201898545216,
  31201898545216,
  31201864990786,
  31201898528836,
  31204078526656,
  31204078526656,
  31204044980416,
  31204044980416,
  31204011425986,
  31204044964036,
  31201931043136,
  31199784607936,
  31201897496896,
  31199751061696,
  31201863942466,
  31199751045316,
  31199784607936,
  31201931043136,
  31199751061696,
  31201897496896,
  31199717507266,
  31201897480516,
  31199784083776,
  31199784083776,
  31199750537536,
  31199750537536,
  31199716983106,
  31199750521156,
  162160790664388672,
  162160790664388672,
  162160790664388672,
  162160790664388672,
  162160790630842432,
  162160790630842432,
  162160790630842432,
  162160790630842432,
  162160790597288002,
  162160790630826052,
  162160790597288002,
  162160790630826052,
  162160788517429312,
  162160788517429312,
  162160788517429312,
  162160788517429312,
  162160788483883072,
  162160788483883072,
  162160788483883072,
  162160788483883072,
  162160788450328642,
  162160788483866692,
  162160788450328642,
  162160788483866692,
  126140789737922752,
  126140789737922752,
  162160790663864512,
  162160790663864512,
  126140789704376512,
  126140789704376512,
  162160790630318272,
  162160790630318272,
  126140789670822082,
  126140789704360132,
  162160790596763842,
  162160790630301892,
  126140787590439232,
  126140785444004032,
  162160788516380992,
  162160786369945792,
  126140787556892992,
  126140785410457792,
  162160788482834752,
  162160786336399552,
  126140787523338562,
  126140785410441412,
  162160788449280322,
  162160786336383172,
  162160786369945792,
  162160788516380992,
  162160786369945792,
  162160788516380992,
  162160786336399552,
  162160788482834752,
  162160786336399552,
  162160788482834752,
  162160786302845122,
  162160788482818372,
  162160786302845122,
  162160788482818372,
  126140785443479872,
  126140785443479872,
  162160786369421632,
  162160786369421632,
  126140785409933632,
  126140785409933632,
  162160786335875392,
  162160786335875392,
  126140785376379202,
  126140785409917252,
  162160786302320962,
  162160786335859012,
  164412590478073920,
  164412590478073920,
  164412588331114560,
  164412588331114560,
  163849777963081920,
  163849777963081920,
  163849775815598400,
  163849773669163200,
  164412586183631040,
  164412588330066240,
  163849773668639040,
  163849773668639040,
  162160790664388672,
  162160790664388672,
  162160788517429312,
  162160788517429312,
  162160790663864512,
  162160790663864512,
  162160788516380992,
  162160786369945792,
  162160786369945792,
  162160788516380992,
  162160786369421632,
  162160786369421632,
  164412590478073920,
  164412590478073920,
  164412590444527680,
  164412590444527680,
  128392589552123970,
  128392589552123970,
  128392589518569540,
  128392589485031490,
  164412590410973250,
  164412590444511300,
  128392589485023300,
  128392589485023300,
  164412590477549760,
  164412590477549760,
  164412590444003520,
  164412590444003520,
  128392589551599810,
  128392589551599810,
  128392589518045380,
  128392589484507330,
  164412590410449090,
  164412590443987140,
  128392589484499140,
  128392589484499140,
  164412588330066240,
  164412586183631040,
  164412588296520000,
  164412586150084800,
  128392587404116290,
  128392585257681090,
  128392587370561860,
  128392585190588610,
  164412588262965570,
  164412586150068420,
  128392587337015620,
  128392585190580420,
  2283003892736064,
  2283003892736064,
  2283003859189824,
  2283003859189824,
  2283003892727874,
  2283003892727874,
  2283003859173444,
  2283003825635394,
  2283003825635394,
  2283003859173444,
  2283003825627204,
  2283003825627204,
  2283003892211904,
  2283003892211904,
  2283003858665664,
  2283003858665664,
  2283003892203714,
  2283003892203714,
  2283003858649284,
  2283003825111234,
  2283003825111234,
  2283003858649284,
  2283003825103044,
  2283003825103044,
  2283001744728384,
  2282999598293184,
  2283001711182144,
  2282999564746944,
  2283001744720194,
  2282999598284994,
  2283001711165764,
  2282999531192514,
  2283001677627714,
  2282999564730564,
  2283001677619524,
  2282999531184324,
  164412590478073920,
  164412590478073920,
  164412590478073920,
  164412590478073920,
  164412590478065730,
  164412590478065730,
  164412590478065730,
  164412590478065730,
  164412590444511300,
  164412590410973250,
  164412590444511300,
  164412590410973250,
  164412590477549760,
  164412590477549760,
  164412590477549760,
  164412590477549760,
  164412590477541570,
  164412590477541570,
  164412590477541570,
  164412590477541570,
  164412590443987140,
  164412590410449090,
  164412590443987140,
  164412590410449090,
  164412588330066240,
  164412586183631040,
  164412588330066240,
  164412586183631040,
  164412588330058050,
  164412586183622850,
  164412588330058050,
  164412586183622850,
  164412588296503620,
  164412586116530370,
  164412588296503620,
  164412586116530370,
  164412590478073920,
  164412590478073920,
  164412590478065730,
  164412590478065730,
  164412590444511300,
  164412590410973250,
  164412590477549760,
  164412590477549760,
  164412590477541570,
  164412590477541570,
  164412590443987140,
  164412590410449090,
  164412588330066240,
  164412586183631040,
  164412588330058050,
  164412586183622850,
  164412588296503620,
  164412586116530370,
  2252217567158336,
  2252217567158336,
  2252217567150146,
  2252217567150146,
  2252217533595716,
  2252217500057666,
  2252217566634176,
  2252217566634176,
  2252217566625986,
  2252217566625986,
  2252217533071556,
  2252217499533506,
  2252215419150656,
  2252213272715456,
  2252215419142466,
  2252213272707266,
  2252215385588036,
  2252213205614786,
  162160378347528256,
  162160378347528256,
  162160378347520066,
  162160378347520066,
  162160378313965636,
  162160378280427586,
  162160378347004096,
  162160378347004096,
  162160378346995906,
  162160378346995906,
  162160378313441476,
  162160378279903426,
  162160376199520576,
  162160374053085376,
  162160376199512386,
  162160374053077186,
  162160376165957956,
  162160373985984706,
  164412590478073920,
  164412590478073920,
  164412590478073920,
  164412590478073920,
  127829777037664320,
  127829777037664320,
  164412590478073920,
  164412590478073920,
  164412590478065730,
  164412590478065730,
  164412590478065730,
  164412590478065730,
  127829777037656130,
  127829777037656130,
  164412590478065730,
  164412590478065730,
  164412590444511300,
  164412590410973250,
  164412590444511300,
  164412590410973250,
  127829777004101700,
  127829776970563650,
  164412590444511300,
  164412590410973250,
  164412590477549760,
  164412590477549760,
  164412590477549760,
  164412590477549760,
  127829777037140160,
  127829777037140160,
  164412590477549760,
  164412590477549760]
def ccsdt_t3_aaaaaa_cert_2 : List Nat := [164412590477541570,
  164412590477541570,
  164412590477541570,
  164412590477541570,
  127829777037131970,
  127829777037131970,
  164412590477541570,
  164412590477541570,
  164412590443987140,
  164412590410449090,
  164412590443987140,
  164412590410449090,
  127829777003577540,
  127829776970039490,
  164412590443987140,
  164412590410449090,
  164412588330066240,
  164412586183631040,
  164412588330066240,
  164412586183631040,
  127829774889656640,
  127829772743221440,
  164412588330066240,
  164412586183631040,
  164412588330058050,
  164412586183622850,
  164412588330058050,
  164412586183622850,
  127829774889648450,
  127829772743213250,
  164412588330058050,
  164412586183622850,
  164412588296503620,
  164412586116530370,
  164412588296503620,
  164412586116530370,
  127829774856094020,
  127829772676120770,
  164412588296503620,
  164412586116530370,
  2283003892736064,
  2283003892736064,
  2283003892736064,
  2283003892736064,
  2283003859189824,
  2283003859189824,
  2283003859189824,
  2283003859189824,
  2283003825635394,
  2283003859173444,
  2283003825635394,
  2283003859173444,
  2283003892211904,
  2283003892211904,
  2283003892211904,
  2283003892211904,
  2283003858665664,
  2283003858665664,
  2283003858665664,
  2283003858665664,
  2283003825111234,
  2283003858649284,
  2283003825111234,
  2283003858649284,
  2283001744728384,
  2282999598293184,
  2283001744728384,
  2282999598293184,
  2283001711182144,
  2282999564746944,
  2283001711182144,
  2282999564746944,
  2283001677627714,
  2282999564730564,
  2283001677627714,
  2282999564730564,
  164412590478073920,
  164412590478073920,
  164412590478073920,
  164412590478073920,
  163849777963606080,
  163849777963606080,
  164412590444527680,
  164412590444527680,
  164412590444527680,
  164412590444527680,
  163849777930059840,
  163849777930059840,
  164412590410973250,
  164412590444511300,
  164412590410973250,
  164412590444511300,
  163849777896505410,
  163849777930043460,
  164412590477549760,
  164412590477549760,
  164412590477549760,
  164412590477549760,
  163849777963081920,
  163849777963081920,
  164412590444003520,
  164412590444003520,
  164412590444003520,
  164412590444003520,
  163849777929535680,
  163849777929535680,
  164412590410449090,
  164412590443987140,
  164412590410449090,
  164412590443987140,
  163849777895981250,
  163849777929519300,
  164412588330066240,
  164412586183631040,
  164412588330066240,
  164412586183631040,
  163849775815598400,
  163849773669163200,
  164412588296520000,
  164412586150084800,
  164412588296520000,
  164412586150084800,
  163849775782052160,
  163849773635616960,
  164412588262965570,
  164412586150068420,
  164412588262965570,
  164412586150068420,
  163849775748497730,
  163849773635600580,
  30791762190400,
  30791762190400,
  30791728644160,
  30791728644160,
  30791695089730,
  30791728627780,
  30791761666240,
  30791761666240,
  30791728120000,
  30791728120000,
  30791694565570,
  30791728103620,
  30789614182720,
  30787467747520,
  30789580636480,
  30787434201280,
  30789547082050,
  30787434184900,
  162160790664388672,
  162160790664388672,
  162160790630842432,
  162160790630842432,
  126140789738438722,
  126140789738438722,
  126140789704884292,
  126140789671346242,
  162160790597288002,
  162160790630826052,
  126140789671338052,
  126140789671338052,
  162160788517429312,
  162160788517429312,
  162160788483883072,
  162160788483883072,
  126140787591479362,
  126140787591479362,
  126140787557924932,
  126140787524386882,
  162160788450328642,
  162160788483866692,
  126140787524378692,
  126140787524378692,
  162160786369945792,
  162160788516380992,
  162160786336399552,
  162160788482834752,
  126140785443995842,
  126140787590431042,
  126140785410441412,
  126140787523338562,
  162160786302845122,
  162160788482818372,
  126140785376895172,
  126140787523330372,
  163849777963606080,
  163849777963606080,
  164412590478073920,
  164412590478073920,
  163849777930059840,
  163849777930059840,
  164412590444527680,
  164412590444527680,
  163849777963597890,
  163849777963597890,
  164412590478065730,
  164412590478065730,
  163849777930043460,
  163849777896505410,
  164412590444511300,
  164412590410973250,
  163849777896505410,
  163849777930043460,
  164412590410973250,
  164412590444511300,
  163849777896497220,
  163849777896497220,
  164412590410965060,
  164412590410965060,
  163849775816646720,
  163849775816646720,
  164412588331114560,
  164412588331114560,
  163849775783100480,
  163849775783100480,
  164412588297568320,
  164412588297568320,
  163849775816638530,
  163849775816638530,
  164412588331106370,
  164412588331106370,
  163849775783084100,
  163849775749546050,
  164412588297551940,
  164412588264013890,
  163849775749546050,
  163849775783084100,
  164412588264013890,
  164412588297551940,
  163849775749537860,
  163849775749537860,
  164412588264005700,
  164412588264005700,
  163849773669163200,
  163849775815598400,
  164412586183631040,
  164412588330066240,
  163849773635616960,
  163849775782052160,
  164412586150084800,
  164412588296520000,
  163849773669155010,
  163849775815590210,
  164412586183622850,
  164412588330058050,
  163849773635600580,
  163849775748497730,
  164412586150068420,
  164412588262965570,
  163849773602062530,
  163849775782035780,
  164412586116530370,
  164412588296503620,
  163849773602054340,
  163849775748489540,
  164412586116522180,
  164412588262957380,
  31204079050816,
  31204079050816,
  31204045504576,
  31204045504576,
  31204079042626,
  31204079042626,
  31204045488196,
  31204011950146,
  31204011950146,
  31204045488196,
  31204011941956,
  31204011941956,
  31201932091456,
  31201932091456,
  31201898545216,
  31201898545216,
  31201932083266,
  31201932083266,
  31201898528836,
  31201864990786,
  31201864990786,
  31201898528836,
  31201864982596,
  31201864982596,
  31199784607936,
  31201931043136,
  31199751061696,
  31201897496896,
  31199784599746,
  31201931034946,
  31199751045316,
  31201863942466,
  31199717507266,
  31201897480516,
  31199717499076,
  31201863934276,
  1720191378268224,
  1720191378268224,
  2283003892736064,
  2283003892736064,
  1720191344721984,
  1720191344721984,
  2283003859189824,
  2283003859189824,
  1720191378260034,
  1720191378260034,
  2283003892727874,
  2283003892727874,
  1720191344705604,
  1720191311167554,
  2283003859173444,
  2283003825635394,
  1720191311167554,
  1720191344705604,
  2283003825635394,
  2283003859173444,
  1720191311159364,
  1720191311159364,
  2283003825627204,
  2283003825627204,
  1720189231308864,
  1720189231308864,
  2283001745776704,
  2283001745776704,
  1720189197762624,
  1720189197762624,
  2283001712230464,
  2283001712230464,
  1720189231300674,
  1720189231300674,
  2283001745768514,
  2283001745768514,
  1720189197746244,
  1720189164208194,
  2283001712214084,
  2283001678676034,
  1720189164208194,
  1720189197746244,
  2283001678676034,
  2283001712214084,
  1720189164200004,
  1720189164200004,
  2283001678667844,
  2283001678667844,
  1720187083825344,
  1720189230260544,
  2282999598293184,
  2283001744728384,
  1720187050279104,
  1720189196714304,
  2282999564746944,
  2283001711182144,
  1720187083817154,
  1720189230252354,
  2282999598284994,
  2283001744720194,
  1720187050262724,
  1720189163159874,
  2282999564730564,
  2283001677627714,
  1720187016724674,
  1720189196697924,
  2282999531192514,
  2283001711165764,
  1720187016716484,
  1720189163151684,
  2282999531184324,
  2283001677619524,
  164412590478073920,
  164412590478073920,
  164412590444527680,
  164412590444527680,
  128392589552123970,
  128392589552123970,
  128392589518569540,
  128392589485031490,
  164412590410973250,
  164412590444511300,
  128392589485023300,
  128392589485023300,
  2283003892736064,
  2283003892736064,
  2283003859189824,
  2283003859189824,
  2283003892727874,
  2283003892727874,
  2283003859173444,
  2283003825635394,
  2283003825635394,
  2283003859173444,
  2283003825627204,
  2283003825627204,
  2283003892736064,
  2283003892736064,
  1720191378268224,
  1720191378268224,
  2283003859189824,
  2283003859189824,
  1720191344721984,
  1720191344721984,
  2283003825635394,
  2283003859173444,
  1720191311167554,
  1720191344705604]
def ccsdt_t3_aaaaaa_cert_3 : List Nat := [164412590478073920,
  164412590478073920,
  164412590444527680,
  164412590444527680,
  164412590410973250,
  164412590444511300,
  162160790664388672,
  162160790664388672,
  126140789738446912,
  126140789738446912,
  162160788517429312,
  162160788517429312,
  126140787591487552,
  126140787591487552,
  162160786369945792,
  162160788516380992,
  126140785444004032,
  126140787590439232,
  164412590478073920,
  164412590478073920,
  164412588331114560,
  164412588331114560,
  164412586183631040,
  164412588330066240,
  2283003892736064,
  2283003892736064,
  2283003859189824,
  2283003859189824,
  2283003825635394,
  2283003859173444,
  2283001745776704,
  2283001745776704,
  2283001712230464,
  2283001712230464,
  2283001678676034,
  2283001712214084,
  2282999598293184,
  2283001744728384,
  2282999564746944,
  2283001711182144,
  2282999531192514,
  2283001711165764,
  31204079050816,
  31204079050816,
  31204079050816,
  31204079050816,
  31204045504576,
  31204045504576,
  31204045504576,
  31204045504576,
  31204011950146,
  31204045488196,
  31204011950146,
  31204045488196,
  31201932091456,
  31201932091456,
  31201932091456,
  31201932091456,
  31201898545216,
  31201898545216,
  31201898545216,
  31201898545216,
  31201864990786,
  31201898528836,
  31201864990786,
  31201898528836,
  31199784607936,
  31201931043136,
  31199784607936,
  31201931043136,
  31199751061696,
  31201897496896,
  31199751061696,
  31201897496896,
  31199717507266,
  31201897480516,
  31199717507266,
  31201897480516,
  417753473088,
  417753473088,
  417719926848,
  417719926848,
  417753473088,
  417753473088,
  30791762190400,
  30791762190400,
  30791761666240,
  30791761666240,
  30791762190400,
  30791762190400,
  31204079050816,
  31204079050816,
  31204045504576,
  31204045504576,
  31204079050816,
  31204079050816,
  31204079050816,
  31204079050816,
  31204078526656,
  31204078526656,
  31204079050816,
  31204079050816,
  31204079050816,
  31204079050816,
  31204079042626,
  31204079042626,
  31204078526656,
  31204078526656,
  31204078518466,
  31204078518466,
  31204079050816,
  31204079050816,
  31204078526656,
  31204078526656,
  31204079050816,
  31204079050816,
  31204079042626,
  31204079042626,
  31204079050816,
  31204079050816,
  417753473088,
  417753473088,
  417753464898,
  417753464898,
  417752948928,
  417752948928,
  417752940738,
  417752940738,
  417753473088,
  417753473088,
  417752948928,
  417752948928,
  417753473088,
  417753473088,
  417753464898,
  417753464898,
  417753473088,
  417753473088,
  30791762190400,
  30791762190400,
  30791728644160,
  30791728644160,
  30789615231040,
  30789615231040,
  30789581684800,
  30789581684800,
  30791762190400,
  30791762190400,
  30789615231040,
  30789615231040,
  30791762190400,
  30791762190400,
  30791728644160,
  30791728644160,
  30791762190400,
  30791762190400,
  1689405052690496,
  1689405052690496,
  1689405052682306,
  1689405052682306,
  1689405052690496,
  1689405052690496,
  31204079050816,
  31204079050816,
  31204045504576,
  31204045504576,
  31204078526656,
  31204078526656,
  31204044980416,
  31204044980416,
  31204079050816,
  31204079050816,
  31204045504576,
  31204045504576,
  31204078526656,
  31204078526656,
  31204044980416,
  31204044980416,
  31204079050816,
  31204079050816,
  31204078526656,
  31204078526656,
  31204079050816,
  31204079050816,
  31204078526656,
  31204078526656,
  31204079050816,
  31204079050816,
  31204045504576,
  31204045504576,
  31204079050816,
  31204079050816,
  31204045504576,
  31204045504576,
  31204079050816,
  31204079050816,
  31204079050816,
  31204079050816,
  162160378347528256,
  162160378347528256,
  162160376200568896,
  162160376200568896,
  162160378347528256,
  162160378347528256,
  2252217567158336,
  2252217567158336,
  2252217567150146,
  2252217567150146,
  2252217566634176,
  2252217566634176,
  2252217566625986,
  2252217566625986,
  2252217567158336,
  2252217567158336,
  2252217567150146,
  2252217567150146,
  2252217567158336,
  2252217567158336,
  2252217566634176,
  2252217566634176,
  2252217567158336,
  2252217567158336,
  31204079050816,
  31204079050816,
  31204079042626,
  31204079042626,
  31204078526656,
  31204078526656,
  31204078518466,
  31204078518466,
  31204079050816,
  31204079050816,
  31204045504576,
  31204045504576,
  31201932091456,
  31201932091456,
  31201898545216,
  31201898545216,
  31204079050816,
  31204079050816,
  31204011941956,
  31204011941956,
  31204078526656,
  31204078526656,
  31204011417796,
  31204011417796,
  31204079050816,
  31204079050816,
  31204045504576,
  31204045504576,
  31204078526656,
  31204078526656,
  31204044980416,
  31204044980416,
  31204079050816,
  31204079050816,
  31201932091456,
  31201932091456,
  31204079050816,
  31204079050816,
  31204045504576,
  31204045504576,
  31199784083776,
  31199784083776,
  31199750537536,
  31199750537536,
  31204079050816,
  31204079050816,
  31199784083776,
  31199784083776,
  31204079050816,
  31204079050816,
  31204079042626,
  31204079042626,
  31204079050816,
  31204079050816,
  31204045504576,
  31204045504576,
  31204078526656,
  31204078526656,
  31204044980416,
  31204044980416,
  31204079050816,
  31204079050816,
  31204011941956,
  31204011941956,
  31204079050816,
  31204079050816,
  31204045504576,
  31204045504576,
  31204079050816,
  31204079050816,
  31204078526656,
  31204078526656,
  162160378347528256,
  162160378347528256,
  162160378313982016,
  162160378313982016,
  162160376200568896,
  162160376200568896,
  162160376167022656,
  162160376167022656,
  162160378347528256,
  162160378347528256,
  162160376200568896,
  162160376200568896,
  162160378347528256,
  162160378347528256,
  162160378313982016,
  162160378313982016,
  162160378347528256,
  162160378347528256,
  2283003892736064,
  2283003892736064,
  2283003859189824,
  2283003859189824,
  1720191378268224,
  1720191378268224,
  1720191344721984,
  1720191344721984,
  1720191378268224,
  1720191378268224,
  1720191378260034,
  1720191378260034,
  2283003892736064,
  2283003892736064,
  2283003859189824,
  2283003859189824,
  2283003892211904,
  2283003892211904,
  2283003858665664,
  2283003858665664,
  2283003892736064,
  2283003892736064,
  2283003859189824,
  2283003859189824,
  2283003892211904,
  2283003892211904,
  2283003858665664,
  2283003858665664,
  2283003892736064,
  2283003892736064,
  2283003859189824,
  2283003859189824,
  2283003892736064,
  2283003892736064,
  2283003859189824,
  2283003859189824,
  1720191378268224,
  1720191378268224,
  1720191311159364,
  1720191311159364,
  2283003892736064,
  2283003892736064,
  1720191378268224,
  1720191378268224,
  1720191378268224,
  1720191378268224,
  1720191344721984,
  1720191344721984,
  2283003892736064,
  2283003892736064,
  2283003892211904,
  2283003892211904,
  2283003892736064,
  2283003892736064,
  2283003892211904,
  2283003892211904,
  2283003892736064,
  2283003892736064,
  2283003892736064,
  2283003892736064,
  162160790664388672,
  162160790664388672,
  162160790663864512,
  162160790663864512,
  126140789738446912,
  126140789738446912,
  126140789737922752,
  126140789737922752,
  162160790664388672,
  162160790664388672,
  162160790630842432,
  162160790630842432,
  162160790663864512,
  162160790663864512,
  162160790630318272,
  162160790630318272,
  162160790664388672,
  162160790664388672,
  162160790630842432,
  162160790630842432,
  162160790663864512,
  162160790663864512,
  162160790630318272,
  162160790630318272,
  162160790664388672,
  162160790664388672,
  162160790663864512,
  162160790663864512]
def ccsdt_t3_aaaaaa_cert_4 : List Nat := [162160790664388672,
  162160790664388672,
  162160790663864512,
  162160790663864512,
  162160790664388672,
  162160790664388672,
  162160788517429312,
  162160788517429312,
  162160790664388672,
  162160790664388672,
  162160786369421632,
  162160786369421632,
  162160790664388672,
  162160790664388672,
  126140789738446912,
  126140789738446912,
  162160790664388672,
  162160790664388672,
  162160790630842432,
  162160790630842432,
  162160790664388672,
  162160790664388672,
  162160790630842432,
  162160790630842432,
  162160790664388672,
  162160790664388672,
  162160790664388672,
  162160790664388672,
  162160790664388672,
  162160790664388672,
  162160790663864512,
  162160790663864512,
  164412590478073920,
  164412590478073920,
  164412590444527680,
  164412590444527680,
  163849777963606080,
  163849777963606080,
  163849777930059840,
  163849777930059840,
  127829777037664320,
  127829777037664320,
  127829777004118080,
  127829777004118080,
  164412590478073920,
  164412590478073920,
  163849777963606080,
  163849777963606080,
  127829777037664320,
  127829777037664320,
  163849777963606080,
  163849777963606080,
  163849777963597890,
  163849777963597890,
  163849777963606080,
  163849777963606080,
  163849777963606080,
  163849777963606080,
  163849777963081920,
  163849777963081920,
  127829777037664320,
  127829777037664320,
  127829777037140160,
  127829777037140160,
  128392589552132160,
  128392589552132160,
  128392589551608000,
  128392589551608000,
  164412590478073920,
  164412590478073920,
  164412590444527680,
  164412590444527680,
  164412590477549760,
  164412590477549760,
  164412590444003520,
  164412590444003520,
  164412590478073920,
  164412590478073920,
  164412590444527680,
  164412590444527680,
  164412590477549760,
  164412590477549760,
  164412590444003520,
  164412590444003520,
  127829777037664320,
  127829777037664320,
  127829777004118080,
  127829777004118080,
  127829777037140160,
  127829777037140160,
  127829777003593920,
  127829777003593920,
  164412590478073920,
  164412590478073920,
  164412590444527680,
  164412590444527680,
  164412590477549760,
  164412590477549760,
  164412590444003520,
  164412590444003520,
  164412590478073920,
  164412590478073920,
  164412590477549760,
  164412590477549760,
  164412590478073920,
  164412590478073920,
  164412590477549760,
  164412590477549760,
  127829777037664320,
  127829777037664320,
  127829777037140160,
  127829777037140160,
  164412590478073920,
  164412590478073920,
  164412590477549760,
  164412590477549760,
  163849777963606080,
  163849777963606080,
  163849777963597890,
  163849777963597890,
  163849777963081920,
  163849777963081920,
  163849777963073730,
  163849777963073730,
  163849777963606080,
  163849777963606080,
  163849777963597890,
  163849777963597890,
  163849777963081920,
  163849777963081920,
  163849777963073730,
  163849777963073730,
  164412590478073920,
  164412590478073920,
  164412590478065730,
  164412590478065730,
  164412590477549760,
  164412590477549760,
  164412590477541570,
  164412590477541570,
  163849777963606080,
  163849777963606080,
  163849777963081920,
  163849777963081920,
  163849777963606080,
  163849777963606080,
  163849777963081920,
  163849777963081920,
  164412590478073920,
  164412590478073920,
  164412590477549760,
  164412590477549760,
  163849777963606080,
  163849777963606080,
  127829777037664320,
  127829777037664320,
  128392589552132160,
  128392589552132160,
  164412590478073920,
  164412590478073920,
  164412590444527680,
  164412590444527680,
  164412590478073920,
  164412590478073920,
  164412590444527680,
  164412590444527680,
  127829777037664320,
  127829777037664320,
  127829777004118080,
  127829777004118080,
  164412590478073920,
  164412590478073920,
  164412590444527680,
  164412590444527680,
  164412590478073920,
  164412590478073920,
  164412590478073920,
  164412590478073920,
  127829777037664320,
  127829777037664320,
  164412590478073920,
  164412590478073920,
  163849777963606080,
  163849777963606080,
  163849777963597890,
  163849777963597890,
  163849777963606080,
  163849777963606080,
  163849777963597890,
  163849777963597890,
  164412590478073920,
  164412590478073920,
  164412590478065730,
  164412590478065730,
  163849777963606080,
  163849777963606080,
  163849777963606080,
  163849777963606080,
  164412590478073920,
  164412590478073920,
  163849777963606080,
  163849777963606080,
  163849775816646720,
  163849775816646720,
  164412590478073920,
  164412590478073920,
  164412590444527680,
  164412590444527680,
  164412588331114560,
  164412588331114560,
  164412588297568320,
  164412588297568320,
  164412590478073920,
  164412590478073920,
  164412590444527680,
  164412590444527680,
  164412588331114560,
  164412588331114560,
  164412588297568320,
  164412588297568320,
  128392589552132160,
  128392589552132160,
  128392589518585920,
  128392589518585920,
  128392587405172800,
  128392587405172800,
  128392587371626560,
  128392587371626560,
  164412590478073920,
  164412590478073920,
  164412588331114560,
  164412588331114560,
  164412590478073920,
  164412590478073920,
  164412588331114560,
  164412588331114560,
  128392589552132160,
  128392589552132160,
  128392587405172800,
  128392587405172800,
  163849777963606080,
  163849777963606080,
  164412590478073920,
  164412590478073920,
  164412590444527680,
  164412590444527680,
  164412590478073920,
  164412590478073920,
  164412590444527680,
  164412590444527680,
  128392589552132160,
  128392589552132160,
  128392589518585920,
  128392589518585920,
  164412590478073920,
  164412590478073920,
  164412590478073920,
  164412590478073920,
  128392589552132160,
  128392589552132160,
  2283003892736064,
  2283003892736064,
  2283003892727874,
  2283003892727874,
  2283003892211904,
  2283003892211904,
  2283003892203714,
  2283003892203714,
  1720191378268224,
  1720191378268224,
  1720191378260034,
  1720191378260034,
  1720191377744064,
  1720191377744064,
  1720191377735874,
  1720191377735874,
  1720191378268224,
  1720191378268224,
  1720191344721984,
  1720191344721984,
  1720191377744064,
  1720191377744064,
  1720191344197824,
  1720191344197824,
  2283003892736064,
  2283003892736064,
  2283003892727874,
  2283003892727874,
  1720191378268224,
  1720191378268224,
  1720191378260034,
  1720191378260034,
  1720191378268224,
  1720191378268224,
  1720191344721984,
  1720191344721984,
  2283003892736064,
  2283003892736064,
  2283003825627204,
  2283003825627204,
  2283003892211904,
  2283003892211904,
  2283003825103044,
  2283003825103044,
  1720191378268224,
  1720191378268224,
  1720191311159364,
  1720191311159364,
  1720191377744064,
  1720191377744064,
  1720191310635204,
  1720191310635204,
  2283003892736064,
  2283003892736064,
  2283003825627204,
  2283003825627204,
  1720191378268224,
  1720191378268224,
  1720191311159364,
  1720191311159364,
  2283003892736064,
  2283003892736064,
  2283003859189824,
  2283003859189824,
  2283003892211904,
  2283003892211904,
  2283003858665664,
  2283003858665664,
  1720191378268224,
  1720191378268224,
  1720191344721984,
  1720191344721984,
  1720191377744064,
  1720191377744064,
  1720191344197824,
  1720191344197824,
  1720191378268224,
  1720191378268224,
  1720191377744064,
  1720191377744064,
  2283003892736064,
  2283003892736064,
  2283003859189824,
  2283003859189824,
  1720191378268224,
  1720191378268224,
  1720191344721984,
  1720191344721984,
  1720191378268224,
  1720191378268224,
  162160790664388672,
  162160790664388672,
  162160790664380482,
  162160790664380482,
  162160790663864512,
  162160790663864512,
  162160790663856322,
  162160790663856322,
  162160790664388672,
  162160790664388672,
  162160790663864512,
  162160790663864512,
  162160790664388672,
  162160790664388672,
  162160790630842432,
  162160790630842432,
  162160790663864512,
  162160790663864512,
  162160790630318272,
  162160790630318272,
  126140789738446912,
  126140789738446912,
  126140789704900672,
  126140789704900672,
  126140789737922752,
  126140789737922752,
  126140789704376512,
  126140789704376512,
  162160790664388672,
  162160790664388672,
  162160790663864512,
  162160790663864512,
  126140789738446912,
  126140789738446912,
  126140789737922752,
  126140789737922752,
  162160790664388672,
  162160790664388672,
  162160790664380482,
  162160790664380482,
  162160790663864512,
  162160790663864512,
  162160790663856322,
  162160790663856322,
  162160790664388672,
  162160790664388672,
  162160790664380482,
  162160790664380482,
  162160790663864512,
  162160790663864512]
def ccsdt_t3_aaaaaa_cert_5 : List Nat := [162160790663856322,
  162160790663856322,
  162160790664388672,
  162160790664388672,
  162160790663864512,
  162160790663864512,
  162160790664388672,
  162160790664388672,
  162160790663864512,
  162160790663864512,
  162160790664388672,
  162160790664388672,
  162160790664380482,
  162160790664380482,
  162160790664388672,
  162160790664388672,
  162160790664388672,
  162160790664388672,
  162160790630842432,
  162160790630842432,
  126140789738446912,
  126140789738446912,
  126140789704900672,
  126140789704900672,
  162160790664388672,
  162160790664388672,
  126140789738446912,
  126140789738446912,
  162160790664388672,
  162160790664388672,
  162160790664380482,
  162160790664380482,
  162160790664388672,
  162160790664388672,
  162160790664380482,
  162160790664380482,
  162160790664388672,
  162160790664388672,
  162160790664388672,
  162160790664388672,
  164412590478073920,
  164412590478073920,
  164412590478065730,
  164412590478065730,
  164412590477549760,
  164412590477549760,
  164412590477541570,
  164412590477541570,
  127829777037664320,
  127829777037664320,
  127829777037656130,
  127829777037656130,
  127829777037140160,
  127829777037140160,
  127829777037131970,
  127829777037131970,
  164412590478073920,
  164412590478073920,
  164412590477549760,
  164412590477549760,
  127829777037664320,
  127829777037664320,
  127829777037140160,
  127829777037140160,
  164412590478073920,
  164412590478073920,
  164412590478065730,
  164412590478065730,
  127829777037664320,
  127829777037664320,
  127829777037656130,
  127829777037656130,
  164412590478073920,
  164412590478073920,
  127829777037664320,
  127829777037664320,
  164412590478073920,
  164412590478073920,
  164412590478065730,
  164412590478065730,
  164412590477549760,
  164412590477549760,
  164412590477541570,
  164412590477541570,
  163849777963606080,
  163849777963606080,
  163849777963597890,
  163849777963597890,
  163849777963081920,
  163849777963081920,
  163849777963073730,
  163849777963073730,
  163849777963606080,
  163849777963606080,
  163849777930059840,
  163849777930059840,
  163849777963081920,
  163849777963081920,
  163849777929535680,
  163849777929535680,
  164412590478073920,
  164412590478073920,
  164412590478065730,
  164412590478065730,
  163849777963606080,
  163849777963606080,
  163849777963597890,
  163849777963597890,
  163849777963606080,
  163849777963606080,
  163849777930059840,
  163849777930059840,
  164412590478073920,
  164412590478073920,
  164412590410965060,
  164412590410965060,
  164412590477549760,
  164412590477549760,
  164412590410440900,
  164412590410440900,
  163849777963606080,
  163849777963606080,
  163849777896497220,
  163849777896497220,
  163849777963081920,
  163849777963081920,
  163849777895973060,
  163849777895973060,
  164412590478073920,
  164412590478073920,
  164412590410965060,
  164412590410965060,
  163849777963606080,
  163849777963606080,
  163849777896497220,
  163849777896497220,
  164412590478073920,
  164412590478073920,
  164412590444527680,
  164412590444527680,
  164412590477549760,
  164412590477549760,
  164412590444003520,
  164412590444003520,
  163849777963606080,
  163849777963606080,
  163849777930059840,
  163849777930059840,
  163849777963081920,
  163849777963081920,
  163849777929535680,
  163849777929535680,
  163849777963606080,
  163849777963606080,
  163849777963081920,
  163849777963081920,
  164412590478073920,
  164412590478073920,
  164412590444527680,
  164412590444527680,
  163849777963606080,
  163849777963606080,
  163849777930059840,
  163849777930059840,
  163849777963606080,
  163849777963606080,
  164412590478073920,
  164412590478073920,
  164412590478065730,
  164412590478065730,
  164412590477549760,
  164412590477549760,
  164412590477541570,
  164412590477541570,
  164412590478073920,
  164412590478073920,
  164412590477549760,
  164412590477549760,
  164412590478073920,
  164412590478073920,
  164412590444527680,
  164412590444527680,
  164412590477549760,
  164412590477549760,
  164412590444003520,
  164412590444003520,
  128392589552132160,
  128392589552132160,
  128392589518585920,
  128392589518585920,
  128392589551608000,
  128392589551608000,
  128392589518061760,
  128392589518061760,
  164412590478073920,
  164412590478073920,
  164412590477549760,
  164412590477549760,
  128392589552132160,
  128392589552132160,
  128392589551608000,
  128392589551608000,
  164412590478073920,
  164412590478073920,
  164412590478065730,
  164412590478065730,
  164412590477549760,
  164412590477549760,
  164412590477541570,
  164412590477541570,
  164412590478073920,
  164412590478073920,
  164412590478065730,
  164412590478065730,
  164412590477549760,
  164412590477549760,
  164412590477541570,
  164412590477541570,
  164412590478073920,
  164412590478073920,
  164412590477549760,
  164412590477549760,
  164412590478073920,
  164412590478073920,
  164412590477549760,
  164412590477549760,
  164412590478073920,
  164412590478073920,
  164412590478065730,
  164412590478065730,
  164412590478073920,
  164412590478073920,
  164412590478073920,
  164412590478073920,
  164412590444527680,
  164412590444527680,
  128392589552132160,
  128392589552132160,
  128392589518585920,
  128392589518585920,
  164412590478073920,
  164412590478073920,
  128392589552132160,
  128392589552132160,
  164412590478073920,
  164412590478073920,
  164412590478065730,
  164412590478065730,
  164412590478073920,
  164412590478073920,
  164412590478065730,
  164412590478065730,
  164412590478073920,
  164412590478073920,
  164412590478073920,
  164412590478073920,
  2283003892736064,
  2283003892736064,
  2283003892727874,
  2283003892727874,
  2283003892211904,
  2283003892211904,
  2283003892203714,
  2283003892203714,
  2283003892736064,
  2283003892736064,
  2283003892727874,
  2283003892727874,
  2283003892736064,
  2283003892736064,
  2283003859189824,
  2283003859189824,
  2283001745776704,
  2283001745776704,
  2283001712230464,
  2283001712230464,
  2283003892736064,
  2283003892736064,
  2283003859189824,
  2283003859189824,
  2283003892736064,
  2283003892736064,
  2283003825627204,
  2283003825627204,
  2283003892211904,
  2283003892211904,
  2283003825103044,
  2283003825103044,
  2283003892736064,
  2283003892736064,
  2283003825627204,
  2283003825627204,
  2283003892736064,
  2283003892736064,
  2283003859189824,
  2283003859189824,
  2283003892211904,
  2283003892211904,
  2283003858665664,
  2283003858665664,
  2283003892736064,
  2283003892736064,
  2283003859189824,
  2283003859189824,
  2283003892736064,
  2283003892736064,
  2283001745776704,
  2283001745776704,
  2283003892736064,
  2283003892736064,
  126140789738446912,
  126140789738446912,
  126140789738438722,
  126140789738438722,
  126140789737922752,
  126140789737922752,
  126140789737914562,
  126140789737914562,
  162160790664388672,
  162160790664388672,
  162160790630842432,
  162160790630842432,
  162160788517429312,
  162160788517429312,
  162160788483883072,
  162160788483883072,
  126140789738446912,
  126140789738446912,
  126140789737922752,
  126140789737922752,
  162160790664388672,
  162160790664388672,
  162160788517429312,
  162160788517429312,
  162160790664388672,
  162160790664388672,
  162160790630842432,
  162160790630842432,
  162160786369421632,
  162160786369421632,
  162160786335875392,
  162160786335875392,
  162160790664388672,
  162160790664388672,
  162160786369421632,
  162160786369421632,
  126140789738446912,
  126140789738446912,
  126140789738438722,
  126140789738438722,
  162160790664388672,
  162160790664388672,
  162160790630842432,
  162160790630842432,
  162160790663864512,
  162160790663864512,
  162160790630318272,
  162160790630318272,
  126140789738446912,
  126140789738446912,
  162160790664388672,
  162160790664388672,
  162160790663864512,
  162160790663864512,
  164412590478073920,
  164412590478073920,
  164412590444527680,
  164412590444527680,
  127829777037664320,
  127829777037664320,
  127829777004118080,
  127829777004118080,
  164412590478073920,
  164412590478073920,
  127829777037664320,
  127829777037664320,
  164412590478073920,
  164412590478073920,
  164412590477549760,
  164412590477549760,
  127829777037664320,
  127829777037664320,
  127829777037140160,
  127829777037140160,
  164412590478073920,
  164412590478073920,
  127829777037664320,
  127829777037664320,
  127829777037664320,
  127829777037664320,
  127829777037656130,
  127829777037656130,
  164412590478073920,
  164412590478073920,
  164412590444527680,
  164412590444527680,
  164412590477549760,
  164412590477549760,
  164412590444003520,
  164412590444003520]
def ccsdt_t3_aaaaaa_cert_6 : List Nat := [164412590478073920,
  164412590478073920,
  164412590444527680,
  164412590444527680,
  164412590477549760,
  164412590477549760,
  164412590444003520,
  164412590444003520,
  164412590478073920,
  164412590478073920,
  164412590444527680,
  164412590444527680,
  164412590478073920,
  164412590478073920,
  164412590444527680,
  164412590444527680,
  127829777037664320,
  127829777037664320,
  164412590478073920,
  164412590478073920,
  164412590477549760,
  164412590477549760,
  164412590478073920,
  164412590478073920,
  164412590477549760,
  164412590477549760,
  164412590478073920,
  164412590478073920,
  164412590478073920,
  164412590478073920,
  164412590478073920,
  164412590478073920,
  164412588331114560,
  164412588331114560,
  164412590478073920,
  164412590478073920,
  128392589552132160,
  128392589552132160,
  128392589552123970,
  128392589552123970,
  128392589551608000,
  128392589551608000,
  128392589551599810,
  128392589551599810,
  128392589552132160,
  128392589552132160,
  128392589552123970,
  128392589552123970,
  164412590478073920,
  164412590478073920,
  164412590444527680,
  164412590444527680,
  164412588331114560,
  164412588331114560,
  164412588297568320,
  164412588297568320,
  164412590478073920,
  164412590478073920,
  164412590444527680,
  164412590444527680,
  128392589552132160,
  128392589552132160,
  128392589551608000,
  128392589551608000,
  128392589552132160,
  128392589552132160,
  164412590478073920,
  164412590478073920,
  164412588331114560,
  164412588331114560,
  164412590478073920,
  164412590478073920]

/-- Check ccsdt_t3_aaaaaa. C83 -/
theorem ccsdt_t3_aaaaaa : isZeroSpin kinds [aᵥ, bᵥ, cᵥ, iₒ, jₒ, kₒ] 4 [false, false, false, false, false, false]
    (Prog.outs [3, 4, 5, 0, 1, 2] (Prog.thin split_ccsdt_t3 (Prog.ideal (ccsdt_t3eqns_0 ++ ccsdt_t3eqns_1))))
    (Prog.scale (-1) (Prog.ideal (ccsdt_t3_aaaaaa)))
    (ccsdt_t3_aaaaaa_cert_0 ++ (ccsdt_t3_aaaaaa_cert_1 ++ (ccsdt_t3_aaaaaa_cert_2 ++ (ccsdt_t3_aaaaaa_cert_3 ++ (ccsdt_t3_aaaaaa_cert_4 ++ (ccsdt_t3_aaaaaa_cert_5 ++ (ccsdt_t3_aaaaaa_cert_6))))))) = true := by decide +kernel

def ccsdt_t3_aabaab_cert_0 : List Nat := [417753473088,
  417753473088,
  417753464898,
  417753464898,
  417719910468,
  417686372418,
  31204079050816,
  31204079050816,
  31204079042626,
  31204079042626,
  31204045488196,
  31204011950146,
  128392589552132160,
  128392589552132160,
  163849777963606080,
  163849777963606080,
  128392589552123970,
  128392589552123970,
  163849777963597890,
  163849777963597890,
  128392589518569540,
  128392589485031490,
  128392589518569540,
  128392589485031490,
  164412590478073920,
  164412590478073920,
  163849777963606080,
  163849777963606080,
  127829777037664320,
  127829777037664320,
  164412590478065730,
  164412590478065730,
  163849777963597890,
  163849777963597890,
  127829777037656130,
  127829777037656130,
  164412590444511300,
  164412590410973250,
  128392589518569540,
  128392589485031490,
  164412590444511300,
  164412590410973250,
  2252217567158336,
  2252217567158336,
  1689405052690496,
  1689405052690496,
  2252217567150146,
  2252217567150146,
  1689405052682306,
  1689405052682306,
  2252217533595716,
  2252217500057666,
  31204079050816,
  31204079050816,
  31204078526656,
  31204078526656,
  31201931043136,
  31199784607936,
  30791762190400,
  30791762190400,
  30791761666240,
  30791761666240,
  30789614182720,
  30787467747520,
  163849777963606080,
  163849777963606080,
  128392589552132160,
  128392589552132160,
  163849777963081920,
  163849777963081920,
  128392589551608000,
  128392589551608000,
  163849775815598400,
  163849773669163200,
  163849775815598400,
  163849773669163200,
  164412590478073920,
  164412590478073920,
  128392589552132160,
  128392589552132160,
  127829777037664320,
  127829777037664320,
  164412590477549760,
  164412590477549760,
  128392589551608000,
  128392589551608000,
  127829777037140160,
  127829777037140160,
  164412588330066240,
  164412586183631040,
  163849775815598400,
  163849773669163200,
  164412588330066240,
  164412586183631040,
  162160378347528256,
  162160378347528256,
  126140377421586496,
  126140377421586496,
  162160378347004096,
  162160378347004096,
  126140377421062336,
  126140377421062336,
  162160376199520576,
  162160374053085376,
  31204079050816,
  31204079050816,
  31204079042626,
  31204079042626,
  31201932091456,
  31201932091456,
  31201932083266,
  31201932083266,
  31201898528836,
  31201864990786,
  31199784607936,
  31201931043136,
  31199784599746,
  31201931034946,
  31199751045316,
  31201863942466,
  164412590478073920,
  164412590478073920,
  164412590478065730,
  164412590478065730,
  164412588331114560,
  164412588331114560,
  163849775816646720,
  163849775816646720,
  164412588331106370,
  164412588331106370,
  163849775816638530,
  163849775816638530,
  128392587371610180,
  128392587338072130,
  127829774857142340,
  127829774823604290,
  164412586183631040,
  164412588330066240,
  163849773669163200,
  163849775815598400,
  164412586183622850,
  164412588330058050,
  163849773669155010,
  163849775815590210,
  128392585224126660,
  128392587337023810,
  127829772709658820,
  127829774822555970,
  162160790664388672,
  162160790664388672,
  162160790664380482,
  162160790664380482,
  126140789704884292,
  126140789671346242,
  162160790630826052,
  162160790597288002,
  162160788517429312,
  162160788517429312,
  162160788517429312,
  162160788517429312,
  162160788517421122,
  162160788517421122,
  162160788517421122,
  162160788517421122,
  126140787557924932,
  126140787524386882,
  162160786369945792,
  162160788516380992,
  162160786369945792,
  162160788516380992,
  162160786369937602,
  162160788516372802,
  162160786369937602,
  162160788516372802,
  126140785410441412,
  126140787523338562,
  164412590478073920,
  164412590478073920,
  127829777037664320,
  127829777037664320,
  164412590478065730,
  164412590478065730,
  127829777037656130,
  127829777037656130,
  164412588331114560,
  164412588331114560,
  164412588331114560,
  164412588331114560,
  164412588331106370,
  164412588331106370,
  164412588331106370,
  164412588331106370,
  164412588297551940,
  164412588264013890,
  127829774857142340,
  127829774823604290,
  164412586183631040,
  164412588330066240,
  164412586183631040,
  164412588330066240,
  164412586183622850,
  164412588330058050,
  164412586183622850,
  164412588330058050,
  164412586150068420,
  164412588262965570,
  127829772709658820,
  127829774822555970,
  162160790664388672,
  162160790664388672,
  126140789738446912,
  126140789738446912,
  162160790664380482,
  162160790664380482,
  126140789738438722,
  126140789738438722,
  162160788517429312,
  162160788517429312,
  126140787591487552,
  126140787591487552,
  162160788517421122,
  162160788517421122,
  126140787591479362,
  126140787591479362,
  162160788483866692,
  162160788450328642,
  162160786369945792,
  162160788516380992,
  126140785444004032,
  126140787590439232,
  162160786369937602,
  162160788516372802,
  126140785443995842,
  126140787590431042,
  162160786336383172,
  162160788449280322,
  164412590478073920,
  164412590478073920,
  164412590478073920,
  164412590478073920,
  128392589552132160,
  128392589552132160,
  164412590478065730,
  164412590478065730,
  164412590478065730,
  164412590478065730,
  128392589552123970,
  128392589552123970,
  163849775816646720,
  163849775816646720,
  127829774890704960,
  127829774890704960,
  164412588331114560,
  164412588331114560,
  163849775816638530,
  163849775816638530,
  127829774890696770,
  127829774890696770,
  164412588331106370,
  164412588331106370,
  164412588297551940,
  164412588264013890,
  164412588297551940,
  164412588264013890,
  128392587371610180,
  128392587338072130,
  163849773669163200,
  163849775815598400,
  127829772743221440,
  127829774889656640,
  164412586183631040,
  164412588330066240,
  163849773669155010,
  163849775815590210,
  127829772743213250,
  127829774889648450,
  164412586183622850,
  164412588330058050,
  164412586150068420,
  164412588262965570,
  164412586150068420,
  164412588262965570,
  128392585224126660,
  128392587337023810,
  417753473088,
  417753473088,
  417753464898,
  417753464898,
  415606513728,
  415606513728,
  415606505538,
  415606505538,
  415572951108,
  415539413058,
  413459030208,
  415605465408,
  413459022018,
  415605457218,
  413425467588,
  415538364738,
  164412590478073920,
  164412590478073920,
  164412590478065730,
  164412590478065730,
  164412588331114560,
  164412588331114560,
  164412588331106370,
  164412588331106370,
  128392587371610180,
  128392587338072130,
  163849777963081920,
  163849777963081920,
  163849777963073730,
  163849777963073730,
  163849775815598400,
  163849773669163200,
  163849775815590210,
  163849773669155010,
  127829774856094020,
  127829772676120770,
  164412586183631040,
  164412588330066240,
  164412586183622850,
  164412588330058050,
  128392585224126660,
  128392587337023810,
  163849773668639040,
  163849773668639040,
  163849773668630850,
  163849773668630850,
  127829772709134660,
  127829772675596610,
  162160790664388672,
  162160790664388672,
  162160790664380482,
  162160790664380482,
  126140789704884292,
  126140789671346242,
  162160788517429312,
  162160788517429312,
  162160788517421122,
  162160788517421122,
  162160790663864512,
  162160790663864512,
  162160790663856322,
  162160790663856322,
  126140789704360132,
  126140789670822082,
  162160788516380992,
  162160786369945792,
  162160788516372802,
  162160786369937602,
  126140787556876612,
  126140785376903362,
  162160786369945792,
  162160788516380992,
  162160786369937602,
  162160788516372802,
  162160786369421632,
  162160786369421632,
  162160786369413442,
  162160786369413442,
  126140785409917252,
  126140785376379202,
  2283003859189824,
  2283003859189824,
  2283003825635394,
  2283003859173444,
  2283001745776704,
  2283001745776704,
  2283001712230464,
  2283001712230464,
  2283001678676034,
  2283001712214084,
  1720191344197824,
  1720191344197824,
  1720191310643394,
  1720191344181444,
  1720189230260544,
  1720187083825344,
  1720189196714304,
  1720187050279104,
  1720189163159874,
  1720187050262724,
  2282999598293184,
  2283001744728384,
  2282999564746944,
  2283001711182144,
  2282999531192514,
  2283001711165764,
  1720187083301184,
  1720187083301184,
  1720187049754944,
  1720187049754944,
  1720187016200514,
  1720187049738564,
  164412590478073920,
  164412590478073920,
  164412590478073920,
  164412590478073920]
def ccsdt_t3_aabaab_cert_1 : List Nat := [128392589518585920,
  128392589518585920,
  128392589485031490,
  128392589518569540,
  128392587371626560,
  128392587371626560,
  164412588297568320,
  164412588297568320,
  128392587338072130,
  128392587371610180,
  164412588264013890,
  164412588297551940,
  164412590477549760,
  164412590477549760,
  164412590477549760,
  164412590477549760,
  128392589518061760,
  128392589518061760,
  128392589484507330,
  128392589518045380,
  163849775815598400,
  163849773669163200,
  127829774856110400,
  127829772709675200,
  164412588296520000,
  164412586150084800,
  127829774822555970,
  127829772709658820,
  164412588262965570,
  164412586150068420,
  128392585224143040,
  128392587370578240,
  164412586150084800,
  164412588296520000,
  128392585190588610,
  128392587370561860,
  164412586116530370,
  164412588296503620,
  163849773668639040,
  163849773668639040,
  127829772709151040,
  127829772709151040,
  128392585223618880,
  128392585223618880,
  127829772675596610,
  127829772709134660,
  128392585190064450,
  128392585223602500,
  31204079050816,
  31204079050816,
  31204045504576,
  31204045504576,
  31204011950146,
  31204045488196,
  31201898545216,
  31201898545216,
  31201864990786,
  31201898528836,
  31204078526656,
  31204078526656,
  31204044980416,
  31204044980416,
  31204011425986,
  31204044964036,
  31201931043136,
  31199784607936,
  31201897496896,
  31199751061696,
  31201863942466,
  31199751045316,
  31199751061696,
  31201897496896,
  31199717507266,
  31201897480516,
  31199784083776,
  31199784083776,
  31199750537536,
  31199750537536,
  31199716983106,
  31199750521156,
  162160790664388672,
  162160790664388672,
  126140789704900672,
  126140789704900672,
  162160790630842432,
  162160790630842432,
  126140789671346242,
  126140789704884292,
  162160790597288002,
  162160790630826052,
  162160788517429312,
  162160788517429312,
  162160788517429312,
  162160788517429312,
  126140787557941312,
  126140787557941312,
  126140787524386882,
  126140787557924932,
  162160790663864512,
  162160790663864512,
  126140789704376512,
  126140789704376512,
  126140789704376512,
  126140789704376512,
  126140789670822082,
  126140789704360132,
  126140789670822082,
  126140789704360132,
  126140787556892992,
  126140785410457792,
  162160788482834752,
  162160786336399552,
  126140787523338562,
  126140785410441412,
  162160788449280322,
  162160786336383172,
  162160786369945792,
  162160788516380992,
  162160786369945792,
  162160788516380992,
  126140785410457792,
  126140787556892992,
  126140785376903362,
  126140787556876612,
  126140785409933632,
  126140785409933632,
  162160786335875392,
  162160786335875392,
  126140785376379202,
  126140785409917252,
  162160786302320962,
  162160786335859012,
  164412590478073920,
  164412590478073920,
  164412588331114560,
  164412588331114560,
  128392587405172800,
  128392587405172800,
  163849777963081920,
  163849777963081920,
  163849775815598400,
  163849773669163200,
  127829774889656640,
  127829772743221440,
  164412586183631040,
  164412588330066240,
  128392585257689280,
  128392587404124480,
  163849773668639040,
  163849773668639040,
  127829772742697280,
  127829772742697280,
  162160790664388672,
  162160790664388672,
  126140789738446912,
  126140789738446912,
  162160788517429312,
  162160788517429312,
  162160790663864512,
  162160790663864512,
  126140789737922752,
  126140789737922752,
  162160788516380992,
  162160786369945792,
  126140787590439232,
  126140785444004032,
  162160786369945792,
  162160788516380992,
  162160786369421632,
  162160786369421632,
  126140785443479872,
  126140785443479872,
  164412590478073920,
  164412590478073920,
  164412590444527680,
  164412590444527680,
  128392589552123970,
  128392589552123970,
  128392589518569540,
  128392589485031490,
  164412590410973250,
  164412590444511300,
  128392589485023300,
  128392589485023300,
  164412590477549760,
  164412590477549760,
  164412590444003520,
  164412590444003520,
  128392589551599810,
  128392589551599810,
  128392589518045380,
  128392589484507330,
  164412590410449090,
  164412590443987140,
  128392589484499140,
  128392589484499140,
  163849775782052160,
  163849773635616960,
  127829774856094020,
  127829772676120770,
  163849775748497730,
  163849773635600580,
  127829774822547780,
  127829772676112580,
  2283003892736064,
  2283003892736064,
  2283003859189824,
  2283003859189824,
  2283003892727874,
  2283003892727874,
  2283003859173444,
  2283003825635394,
  2283003825635394,
  2283003859173444,
  2283003825627204,
  2283003825627204,
  2283003892211904,
  2283003892211904,
  2283003858665664,
  2283003858665664,
  2283003892203714,
  2283003892203714,
  2283003858649284,
  2283003825111234,
  2283003825111234,
  2283003858649284,
  2283003825103044,
  2283003825103044,
  1720189230260544,
  1720187083825344,
  1720189230252354,
  1720187083817154,
  1720189196697924,
  1720187016724674,
  1720189163151684,
  1720187016716484,
  164412590478073920,
  164412590478073920,
  164412590478073920,
  164412590478073920,
  164412590478065730,
  164412590478065730,
  164412590478065730,
  164412590478065730,
  128392589518569540,
  128392589485031490,
  164412590477549760,
  164412590477549760,
  164412590477549760,
  164412590477549760,
  164412590477541570,
  164412590477541570,
  164412590477541570,
  164412590477541570,
  128392589518045380,
  128392589484507330,
  163849775815598400,
  163849773669163200,
  163849775815590210,
  163849773669155010,
  127829774856094020,
  127829772676120770,
  164412588296503620,
  164412586116530370,
  164412590478073920,
  164412590478073920,
  128392589552132160,
  128392589552132160,
  164412590478065730,
  164412590478065730,
  128392589552123970,
  128392589552123970,
  164412590444511300,
  164412590410973250,
  164412590477549760,
  164412590477549760,
  128392589551608000,
  128392589551608000,
  164412590477541570,
  164412590477541570,
  128392589551599810,
  128392589551599810,
  164412590443987140,
  164412590410449090,
  163849775815598400,
  163849773669163200,
  127829774889656640,
  127829772743221440,
  163849775815590210,
  163849773669155010,
  127829774889648450,
  127829772743213250,
  2252217567158336,
  2252217567158336,
  2252217567150146,
  2252217567150146,
  2252217533595716,
  2252217500057666,
  2252217566634176,
  2252217566634176,
  2252217566625986,
  2252217566625986,
  2252217533071556,
  2252217499533506,
  1689402904682816,
  1689400758247616,
  1689402904674626,
  1689400758239426,
  162160378347528256,
  162160378347528256,
  162160378347520066,
  162160378347520066,
  126140377388023876,
  126140377354485826,
  162160378347004096,
  162160378347004096,
  162160378346995906,
  162160378346995906,
  126140377387499716,
  126140377353961666,
  162160376199520576,
  162160374053085376,
  162160376199512386,
  162160374053077186,
  164412590478073920,
  164412590478073920,
  164412590478073920,
  164412590478073920,
  127829777037664320,
  127829777037664320,
  164412590478073920,
  164412590478073920,
  164412590478065730,
  164412590478065730,
  164412590478065730,
  164412590478065730,
  127829777037656130,
  127829777037656130,
  164412590478065730,
  164412590478065730,
  128392589518569540,
  128392589485031490,
  164412590477549760,
  164412590477549760,
  164412590477549760,
  164412590477549760,
  127829777037140160,
  127829777037140160,
  164412590477549760,
  164412590477549760,
  164412590477541570,
  164412590477541570,
  164412590477541570,
  164412590477541570,
  127829777037131970,
  127829777037131970,
  164412590477541570,
  164412590477541570,
  128392589518045380,
  128392589484507330,
  163849775815598400,
  163849773669163200,
  163849775815590210,
  163849773669155010,
  164412588296503620,
  164412586116530370,
  164412588296503620,
  164412586116530370,
  127829774856094020,
  127829772676120770,
  164412588296503620,
  164412586116530370,
  2283003892736064,
  2283003892736064,
  2283003859189824,
  2283003859189824,
  2283003859189824,
  2283003859189824,
  2283003825635394,
  2283003859173444,
  2283003825635394,
  2283003859173444,
  2283003892211904,
  2283003892211904,
  2283003858665664,
  2283003858665664,
  2283003858665664,
  2283003858665664,
  2283003825111234,
  2283003858649284,
  2283003825111234,
  2283003858649284,
  1720189230260544,
  1720187083825344,
  2283001744728384,
  2282999598293184,
  1720189196714304,
  1720187050279104,
  1720189163159874,
  1720187050262724]
def ccsdt_t3_aabaab_cert_2 : List Nat := [164412590478073920,
  164412590478073920,
  164412590478073920,
  164412590478073920,
  163849777963606080,
  163849777963606080,
  128392589518585920,
  128392589518585920,
  127829777004118080,
  127829777004118080,
  164412590444527680,
  164412590444527680,
  128392589485031490,
  128392589518569540,
  127829776970563650,
  127829777004101700,
  164412590410973250,
  164412590444511300,
  164412590477549760,
  164412590477549760,
  164412590477549760,
  164412590477549760,
  163849777963081920,
  163849777963081920,
  128392589518061760,
  128392589518061760,
  127829777003593920,
  127829777003593920,
  164412590444003520,
  164412590444003520,
  128392589484507330,
  128392589518045380,
  127829776970039490,
  127829777003577540,
  164412590410449090,
  164412590443987140,
  164412588296520000,
  164412586150084800,
  164412588296520000,
  164412586150084800,
  163849775782052160,
  163849773635616960,
  164412588262965570,
  164412586150068420,
  164412588262965570,
  164412586150068420,
  163849775748497730,
  163849773635600580,
  30791762190400,
  30791762190400,
  30791728644160,
  30791728644160,
  30791695089730,
  30791728627780,
  30791761666240,
  30791761666240,
  30791728120000,
  30791728120000,
  30791694565570,
  30791728103620,
  30789580636480,
  30787434201280,
  30789547082050,
  30787434184900,
  162160790630842432,
  162160790630842432,
  126140789704884292,
  126140789671346242,
  162160790597288002,
  162160790630826052,
  126140789671338052,
  126140789671338052,
  162160788517429312,
  162160788517429312,
  162160788483883072,
  162160788483883072,
  126140787591479362,
  126140787591479362,
  126140787557924932,
  126140787524386882,
  162160788450328642,
  162160788483866692,
  126140787524378692,
  126140787524378692,
  162160786369945792,
  162160788516380992,
  162160786336399552,
  162160788482834752,
  126140785443995842,
  126140787590431042,
  126140785410441412,
  126140787523338562,
  162160786302845122,
  162160788482818372,
  126140785376895172,
  126140787523330372,
  164412590478073920,
  164412590478073920,
  164412590478073920,
  164412590478073920,
  164412590478065730,
  164412590478065730,
  164412590478065730,
  164412590478065730,
  128392589518569540,
  128392589485031490,
  128392589485023300,
  128392589485023300,
  163849775816646720,
  163849775816646720,
  163849775783100480,
  163849775783100480,
  164412588297568320,
  164412588297568320,
  163849775816638530,
  163849775816638530,
  127829774857142340,
  127829774823604290,
  164412588297551940,
  164412588264013890,
  163849775749546050,
  163849775783084100,
  164412588264013890,
  164412588297551940,
  127829774823596100,
  127829774823596100,
  164412588264005700,
  164412588264005700,
  163849773669163200,
  163849775815598400,
  163849773635616960,
  163849775782052160,
  164412586150084800,
  164412588296520000,
  163849773669155010,
  163849775815590210,
  127829772709658820,
  127829774822555970,
  163849773635600580,
  163849775748497730,
  163849773602062530,
  163849775782035780,
  164412586116530370,
  164412588296503620,
  127829772676112580,
  127829774822547780,
  163849773602054340,
  163849775748489540,
  31204079050816,
  31204079050816,
  31204079042626,
  31204079042626,
  31204045488196,
  31204011950146,
  31204011941956,
  31204011941956,
  31201932091456,
  31201932091456,
  31201898545216,
  31201898545216,
  31201932083266,
  31201932083266,
  31201898528836,
  31201864990786,
  31201864990786,
  31201898528836,
  31201864982596,
  31201864982596,
  31199784607936,
  31201931043136,
  31199751061696,
  31201897496896,
  31199784599746,
  31201931034946,
  31199751045316,
  31201863942466,
  31199717507266,
  31201897480516,
  31199717499076,
  31201863934276,
  2283003892736064,
  2283003892736064,
  2283003859189824,
  2283003859189824,
  2283003859189824,
  2283003859189824,
  2283003892727874,
  2283003892727874,
  2283003825635394,
  2283003859173444,
  2283003825635394,
  2283003859173444,
  1720189231308864,
  1720189231308864,
  2283001745776704,
  2283001745776704,
  1720189197762624,
  1720189197762624,
  1720189231300674,
  1720189231300674,
  2283001745768514,
  2283001745768514,
  1720189197746244,
  1720189164208194,
  2283001712214084,
  2283001678676034,
  1720189164208194,
  1720189197746244,
  1720189164200004,
  1720189164200004,
  2283001678667844,
  2283001678667844,
  1720187083825344,
  1720189230260544,
  1720187083825344,
  1720189230260544,
  1720187050279104,
  1720189196714304,
  1720187083817154,
  1720189230252354,
  1720187083817154,
  1720189230252354,
  1720187050262724,
  1720189163159874,
  2282999564730564,
  2283001677627714,
  1720187016724674,
  1720189196697924,
  1720187016716484,
  1720189163151684,
  2282999531184324,
  2283001677619524,
  164412590478073920,
  164412590478073920,
  164412590444527680,
  164412590444527680,
  163849777930059840,
  163849777930059840,
  128392589552123970,
  128392589552123970,
  128392589518569540,
  128392589485031490,
  127829777004101700,
  127829776970563650,
  164412590410973250,
  164412590444511300,
  163849777896505410,
  163849777930043460,
  128392589485023300,
  128392589485023300,
  127829776970555460,
  127829776970555460,
  2283003892736064,
  2283003892736064,
  1720191378268224,
  1720191378268224,
  2283003859189824,
  2283003859189824,
  2283003892727874,
  2283003892727874,
  1720191378260034,
  1720191378260034,
  2283003859173444,
  2283003825635394,
  1720191344705604,
  1720191311167554,
  2283003825635394,
  2283003859173444,
  2283003825627204,
  2283003825627204,
  1720191311159364,
  1720191311159364,
  2283003892736064,
  2283003892736064,
  2283003892736064,
  2283003892736064,
  2283003859189824,
  2283003859189824,
  1720191344721984,
  1720191344721984,
  2283003825635394,
  2283003859173444,
  1720191311167554,
  1720191344705604,
  164412590478073920,
  164412590478073920,
  164412590444527680,
  164412590444527680,
  163849777930059840,
  163849777930059840,
  128392589518585920,
  128392589518585920,
  127829777004118080,
  127829777004118080,
  164412590410973250,
  164412590444511300,
  163849777896505410,
  163849777930043460,
  128392589485031490,
  128392589518569540,
  127829776970563650,
  127829777004101700,
  162160790664388672,
  162160790664388672,
  162160790664388672,
  162160790664388672,
  162160788517429312,
  162160788517429312,
  126140787591487552,
  126140787591487552,
  162160786369945792,
  162160788516380992,
  126140785444004032,
  126140787590439232,
  164412590478073920,
  164412590478073920,
  164412588331114560,
  164412588331114560,
  128392587405172800,
  128392587405172800,
  163849775816646720,
  163849775816646720,
  127829774890704960,
  127829774890704960,
  164412586183631040,
  164412588330066240,
  128392585257689280,
  128392587404124480,
  163849773669163200,
  163849775815598400,
  127829772743221440,
  127829774889656640,
  2283003859189824,
  2283003859189824,
  2283003825635394,
  2283003859173444,
  2283001745776704,
  2283001745776704,
  1720189231308864,
  1720189231308864,
  2283001712230464,
  2283001712230464,
  1720189197762624,
  1720189197762624,
  2283001678676034,
  2283001712214084,
  1720189164208194,
  1720189197746244,
  2282999598293184,
  2283001744728384,
  1720187083825344,
  1720189230260544,
  2282999564746944,
  2283001711182144,
  1720187050279104,
  1720189196714304,
  2282999531192514,
  2283001711165764,
  1720187016724674,
  1720189196697924,
  31204079050816,
  31204079050816,
  31204079050816,
  31204079050816,
  31204045504576,
  31204045504576,
  31204011950146,
  31204045488196,
  31201932091456,
  31201932091456,
  31201898545216,
  31201898545216,
  31201898545216,
  31201898545216,
  31201864990786,
  31201898528836,
  31201864990786,
  31201898528836,
  31199784607936,
  31201931043136,
  31199751061696,
  31201897496896,
  31199751061696,
  31201897496896,
  31199717507266,
  31201897480516,
  31199717507266,
  31201897480516,
  417753473088,
  417753473088,
  417753473088,
  417753473088,
  417753473088,
  417753473088,
  30791762190400,
  30791762190400,
  30791761666240,
  30791761666240,
  30791762190400,
  30791762190400]
def ccsdt_t3_aabaab_cert_3 : List Nat := [31204079050816,
  31204079050816,
  31204079050816,
  31204079050816,
  31204079050816,
  31204079050816,
  31204079050816,
  31204079050816,
  31204078526656,
  31204078526656,
  31204079050816,
  31204079050816,
  31204079050816,
  31204079050816,
  31204079042626,
  31204079042626,
  31204078526656,
  31204078526656,
  31204078518466,
  31204078518466,
  31204079050816,
  31204079050816,
  31204078526656,
  31204078526656,
  31204079050816,
  31204079050816,
  31204079042626,
  31204079042626,
  417753473088,
  417753473088,
  417753464898,
  417753464898,
  417752948928,
  417752948928,
  417752940738,
  417752940738,
  417753473088,
  417753473088,
  417752948928,
  417752948928,
  417753473088,
  417753473088,
  417753464898,
  417753464898,
  30791762190400,
  30791762190400,
  30791762190400,
  30791762190400,
  30791762190400,
  30791762190400,
  30791762190400,
  30791762190400,
  30791762190400,
  30791762190400,
  30791762190400,
  30791762190400,
  30791762190400,
  30791762190400,
  30791762190400,
  30791762190400,
  1689405052690496,
  1689405052690496,
  1689405052682306,
  1689405052682306,
  2252217567158336,
  2252217567158336,
  2252217567150146,
  2252217567150146,
  1689405052690496,
  1689405052690496,
  31204079050816,
  31204079050816,
  31204078526656,
  31204078526656,
  31204079050816,
  31204079050816,
  31204078526656,
  31204078526656,
  31204079050816,
  31204079050816,
  31204078526656,
  31204078526656,
  31204079050816,
  31204079050816,
  31204078526656,
  31204078526656,
  31204079050816,
  31204079050816,
  31204078526656,
  31204078526656,
  31204079050816,
  31204079050816,
  31204079050816,
  31204079050816,
  31204079050816,
  31204079050816,
  31204079050816,
  31204079050816,
  162160378347528256,
  162160378347528256,
  162160378347528256,
  162160378347528256,
  126140377421586496,
  126140377421586496,
  162160378347528256,
  162160378347528256,
  126140377421586496,
  126140377421586496,
  2252217567158336,
  2252217567158336,
  2252217567150146,
  2252217567150146,
  2252217566634176,
  2252217566634176,
  2252217566625986,
  2252217566625986,
  1689405052690496,
  1689405052690496,
  1689405052682306,
  1689405052682306,
  2252217567158336,
  2252217567158336,
  2252217566634176,
  2252217566634176,
  31204079050816,
  31204079050816,
  31204079042626,
  31204079042626,
  31204078526656,
  31204078526656,
  31204078518466,
  31204078518466,
  31204079050816,
  31204079050816,
  31204079050816,
  31204079050816,
  31204079050816,
  31204079050816,
  31204079050816,
  31204079050816,
  31204078526656,
  31204078526656,
  31204079050816,
  31204079050816,
  31204078526656,
  31204078526656,
  31204079050816,
  31204079050816,
  31204078526656,
  31204078526656,
  31204079050816,
  31204079050816,
  31204078526656,
  31204078526656,
  31204079050816,
  31204079050816,
  31204079050816,
  31204079050816,
  31204079050816,
  31204079050816,
  31204079050816,
  31204079050816,
  31204079050816,
  31204079050816,
  31204079050816,
  31204079050816,
  31204079050816,
  31204079050816,
  31204079050816,
  31204079050816,
  31204079042626,
  31204079042626,
  31204079050816,
  31204079050816,
  31204078526656,
  31204078526656,
  31204079050816,
  31204079050816,
  31204078526656,
  31204078526656,
  31204079050816,
  31204079050816,
  31204079050816,
  31204079050816,
  31204079050816,
  31204079050816,
  31204078526656,
  31204078526656,
  126140377421586496,
  126140377421586496,
  162160378347528256,
  162160378347528256,
  162160378347528256,
  162160378347528256,
  162160378347528256,
  162160378347528256,
  162160378347528256,
  162160378347528256,
  126140377421586496,
  126140377421586496,
  162160378347528256,
  162160378347528256,
  162160378347528256,
  162160378347528256,
  2283003892736064,
  2283003892736064,
  2283003892736064,
  2283003892736064,
  2283003892736064,
  2283003892736064,
  1720191378268224,
  1720191378268224,
  1720191378268224,
  1720191378268224,
  1720191378260034,
  1720191378260034,
  2283003892736064,
  2283003892736064,
  2283003892727874,
  2283003892727874,
  2283003892736064,
  2283003892736064,
  2283003892211904,
  2283003892211904,
  2283003892736064,
  2283003892736064,
  2283003892211904,
  2283003892211904,
  2283003892736064,
  2283003892736064,
  2283003892211904,
  2283003892211904,
  1720191378268224,
  1720191378268224,
  2283003892736064,
  2283003892736064,
  1720191378268224,
  1720191378268224,
  1720191378268224,
  1720191378268224,
  2283003892736064,
  2283003892736064,
  1720191378268224,
  1720191378268224,
  2283003892736064,
  2283003892736064,
  1720191378268224,
  1720191378268224,
  1720191378268224,
  1720191378268224,
  2283003892736064,
  2283003892736064,
  1720191378268224,
  1720191378268224,
  2283003892736064,
  2283003892736064,
  2283003892211904,
  2283003892211904,
  2283003892736064,
  2283003892736064,
  2283003892211904,
  2283003892211904,
  1720191378268224,
  1720191378268224,
  162160790664388672,
  162160790664388672,
  162160790663864512,
  162160790663864512,
  126140789738446912,
  126140789738446912,
  126140789737922752,
  126140789737922752,
  126140789738446912,
  126140789738446912,
  126140789737922752,
  126140789737922752,
  162160790664388672,
  162160790664388672,
  162160790663864512,
  162160790663864512,
  162160790664388672,
  162160790664388672,
  162160790663864512,
  162160790663864512,
  162160790664388672,
  162160790664388672,
  162160790663864512,
  162160790663864512,
  162160790664388672,
  162160790664388672,
  162160790663864512,
  162160790663864512,
  162160790664388672,
  162160790664388672,
  162160790664388672,
  162160790664388672,
  126140789738446912,
  126140789738446912,
  162160790664388672,
  162160790664388672,
  162160790664388672,
  162160790664388672,
  126140789738446912,
  126140789738446912,
  162160790664388672,
  162160790664388672,
  162160790664388672,
  162160790664388672,
  126140789738446912,
  126140789738446912,
  162160790664388672,
  162160790664388672,
  162160790664388672,
  162160790664388672,
  162160790664388672,
  162160790664388672,
  162160790664388672,
  162160790664388672,
  162160790663864512,
  162160790663864512,
  126140789738446912,
  126140789738446912,
  126140789737922752,
  126140789737922752,
  164412590478073920,
  164412590478073920,
  128392589552132160,
  128392589552132160,
  164412590478073920,
  164412590478073920,
  164412590478073920,
  164412590478073920,
  163849777963606080,
  163849777963606080,
  127829777037664320,
  127829777037664320,
  164412590478073920,
  164412590478073920,
  163849777963606080,
  163849777963606080,
  127829777037664320,
  127829777037664320,
  163849777963606080,
  163849777963606080,
  163849777963597890,
  163849777963597890,
  164412590478073920,
  164412590478073920,
  164412590478065730,
  164412590478065730,
  127829777037664320,
  127829777037664320,
  127829777037656130,
  127829777037656130,
  128392589552132160,
  128392589552132160,
  128392589552123970,
  128392589552123970,
  163849777963606080,
  163849777963606080,
  163849777963606080,
  163849777963606080,
  163849777963081920,
  163849777963081920,
  127829777037664320,
  127829777037664320,
  127829777037140160,
  127829777037140160,
  128392589552132160,
  128392589552132160,
  128392589551608000,
  128392589551608000,
  128392589552132160,
  128392589552132160,
  128392589551608000,
  128392589551608000,
  164412590478073920,
  164412590478073920,
  164412590477549760,
  164412590477549760,
  164412590478073920,
  164412590478073920,
  164412590477549760,
  164412590477549760,
  127829777037664320,
  127829777037664320,
  127829777037140160,
  127829777037140160,
  164412590478073920,
  164412590478073920,
  164412590477549760,
  164412590477549760,
  164412590478073920,
  164412590478073920,
  164412590477549760,
  164412590477549760,
  164412590478073920,
  164412590478073920,
  164412590477549760,
  164412590477549760]
def ccsdt_t3_aabaab_cert_4 : List Nat := [127829777037664320,
  127829777037664320,
  127829777037140160,
  127829777037140160,
  164412590478073920,
  164412590478073920,
  164412590477549760,
  164412590477549760,
  127829777037664320,
  127829777037664320,
  127829777037656130,
  127829777037656130,
  127829777037140160,
  127829777037140160,
  127829777037131970,
  127829777037131970,
  128392589552132160,
  128392589552132160,
  128392589552123970,
  128392589552123970,
  128392589551608000,
  128392589551608000,
  128392589551599810,
  128392589551599810,
  163849777963606080,
  163849777963606080,
  163849777963597890,
  163849777963597890,
  163849777963081920,
  163849777963081920,
  163849777963073730,
  163849777963073730,
  163849777963606080,
  163849777963606080,
  163849777963081920,
  163849777963081920,
  163849777963606080,
  163849777963606080,
  163849777963081920,
  163849777963081920,
  164412590478073920,
  164412590478073920,
  164412590477549760,
  164412590477549760,
  163849777963606080,
  163849777963606080,
  164412590478073920,
  164412590478073920,
  163849777963606080,
  163849777963606080,
  164412590478073920,
  164412590478073920,
  164412590478073920,
  164412590478073920,
  127829777037664320,
  127829777037664320,
  164412590478073920,
  164412590478073920,
  163849777963606080,
  163849777963606080,
  163849777963606080,
  163849777963606080,
  163849777963606080,
  163849777963606080,
  163849777963597890,
  163849777963597890,
  163849777963606080,
  163849777963606080,
  163849777963597890,
  163849777963597890,
  164412590478073920,
  164412590478073920,
  164412590478065730,
  164412590478065730,
  163849777963606080,
  163849777963606080,
  163849777963606080,
  163849777963606080,
  127829777037664320,
  127829777037664320,
  164412590478073920,
  164412590478073920,
  128392589552132160,
  128392589552132160,
  164412590478073920,
  164412590478073920,
  164412590478073920,
  164412590478073920,
  128392589552132160,
  128392589552132160,
  164412590478073920,
  164412590478073920,
  164412590478073920,
  164412590478073920,
  128392589552132160,
  128392589552132160,
  163849777963606080,
  163849777963606080,
  127829777037664320,
  127829777037664320,
  164412590478073920,
  164412590478073920,
  164412590478073920,
  164412590478073920,
  164412590478073920,
  164412590478073920,
  128392589552132160,
  128392589552132160,
  163849777963606080,
  163849777963606080,
  127829777037664320,
  127829777037664320,
  164412590478073920,
  164412590478073920,
  163849777963606080,
  163849777963606080,
  127829777037664320,
  127829777037664320,
  164412590478073920,
  164412590478073920,
  128392589552132160,
  128392589552132160,
  164412590478073920,
  164412590478073920,
  164412590478073920,
  164412590478073920,
  128392589552132160,
  128392589552132160,
  163849777963606080,
  163849777963606080,
  127829777037664320,
  127829777037664320,
  164412590478073920,
  164412590478073920,
  163849777963606080,
  163849777963606080,
  127829777037664320,
  127829777037664320,
  164412590478073920,
  164412590478073920,
  2283003892736064,
  2283003892736064,
  2283003892727874,
  2283003892727874,
  2283003892211904,
  2283003892211904,
  2283003892203714,
  2283003892203714,
  2283003892736064,
  2283003892736064,
  2283003892727874,
  2283003892727874,
  1720191377744064,
  1720191377744064,
  1720191377735874,
  1720191377735874,
  1720191378268224,
  1720191378268224,
  1720191377744064,
  1720191377744064,
  2283003892736064,
  2283003892736064,
  2283003892211904,
  2283003892211904,
  1720191378268224,
  1720191378268224,
  1720191377744064,
  1720191377744064,
  2283003892736064,
  2283003892736064,
  2283003892211904,
  2283003892211904,
  1720191378268224,
  1720191378268224,
  1720191378260034,
  1720191378260034,
  1720191378268224,
  1720191378268224,
  2283003892736064,
  2283003892736064,
  2283003892211904,
  2283003892211904,
  2283003892736064,
  2283003892736064,
  2283003892211904,
  2283003892211904,
  1720191378268224,
  1720191378268224,
  1720191377744064,
  1720191377744064,
  1720191378268224,
  1720191378268224,
  1720191378268224,
  1720191378268224,
  2283003892736064,
  2283003892736064,
  2283003892211904,
  2283003892211904,
  2283003892736064,
  2283003892736064,
  2283003892211904,
  2283003892211904,
  1720191378268224,
  1720191378268224,
  1720191377744064,
  1720191377744064,
  1720191378268224,
  1720191378268224,
  1720191377744064,
  1720191377744064,
  2283003892736064,
  2283003892736064,
  2283003892211904,
  2283003892211904,
  1720191378268224,
  1720191378268224,
  1720191378268224,
  1720191378268224,
  1720191378268224,
  1720191378268224,
  162160790664388672,
  162160790664388672,
  162160790664380482,
  162160790664380482,
  162160790663864512,
  162160790663864512,
  162160790663856322,
  162160790663856322,
  126140789738446912,
  126140789738446912,
  126140789738438722,
  126140789738438722,
  126140789737922752,
  126140789737922752,
  126140789737914562,
  126140789737914562,
  162160790664388672,
  162160790664388672,
  162160790663864512,
  162160790663864512,
  162160790664388672,
  162160790664388672,
  162160790663864512,
  162160790663864512,
  126140789738446912,
  126140789738446912,
  126140789737922752,
  126140789737922752,
  162160790664388672,
  162160790664388672,
  162160790663864512,
  162160790663864512,
  126140789738446912,
  126140789738446912,
  126140789737922752,
  126140789737922752,
  126140789738446912,
  126140789738446912,
  126140789738438722,
  126140789738438722,
  126140789737922752,
  126140789737922752,
  126140789737914562,
  126140789737914562,
  162160790664388672,
  162160790664388672,
  162160790663864512,
  162160790663864512,
  162160790664388672,
  162160790664388672,
  162160790663864512,
  162160790663864512,
  162160790664388672,
  162160790664388672,
  162160790664380482,
  162160790664380482,
  126140789738446912,
  126140789738446912,
  126140789738438722,
  126140789738438722,
  126140789738446912,
  126140789738446912,
  162160790664388672,
  162160790664388672,
  162160790664388672,
  162160790664388672,
  162160790664388672,
  162160790664388672,
  162160790664388672,
  162160790664388672,
  126140789738446912,
  126140789738446912,
  126140789738438722,
  126140789738438722,
  162160790664388672,
  162160790664388672,
  162160790664380482,
  162160790664380482,
  162160790664388672,
  162160790664388672,
  164412590478073920,
  164412590478073920,
  164412590478065730,
  164412590478065730,
  164412590477549760,
  164412590477549760,
  164412590477541570,
  164412590477541570,
  164412590478073920,
  164412590478073920,
  164412590478065730,
  164412590478065730,
  164412590477549760,
  164412590477549760,
  164412590477541570,
  164412590477541570,
  164412590478073920,
  164412590478073920,
  164412590477549760,
  164412590477549760,
  127829777037664320,
  127829777037664320,
  127829777037140160,
  127829777037140160,
  164412590478073920,
  164412590478073920,
  164412590478065730,
  164412590478065730,
  127829777037664320,
  127829777037664320,
  127829777037656130,
  127829777037656130,
  128392589552132160,
  128392589552132160,
  128392589552123970,
  128392589552123970,
  128392589551608000,
  128392589551608000,
  128392589551599810,
  128392589551599810,
  164412590478073920,
  164412590478073920,
  164412590478065730,
  164412590478065730,
  163849777963081920,
  163849777963081920,
  163849777963073730,
  163849777963073730,
  127829777037664320,
  127829777037664320,
  127829777037140160,
  127829777037140160,
  128392589552132160,
  128392589552132160,
  128392589551608000,
  128392589551608000,
  163849777963606080,
  163849777963606080,
  163849777963081920,
  163849777963081920,
  164412590478073920,
  164412590478073920,
  164412590477549760,
  164412590477549760,
  127829777037664320,
  127829777037664320,
  127829777037656130,
  127829777037656130,
  163849777963606080,
  163849777963606080,
  164412590478073920,
  164412590478073920,
  164412590477549760,
  164412590477549760,
  164412590478073920,
  164412590478073920,
  164412590477549760,
  164412590477549760,
  163849777963606080,
  163849777963606080,
  163849777963081920,
  163849777963081920,
  163849777963606080,
  163849777963606080,
  163849777963606080,
  163849777963606080,
  164412590478073920,
  164412590478073920,
  164412590477549760,
  164412590477549760,
  164412590478073920,
  164412590478073920,
  164412590477549760,
  164412590477549760,
  163849777963606080,
  163849777963606080,
  163849777963081920,
  163849777963081920,
  163849777963606080,
  163849777963606080]
def ccsdt_t3_aabaab_cert_5 : List Nat := [163849777963081920,
  163849777963081920,
  164412590478073920,
  164412590478073920,
  164412590477549760,
  164412590477549760,
  163849777963606080,
  163849777963606080,
  163849777963606080,
  163849777963606080,
  163849777963606080,
  163849777963606080,
  164412590478073920,
  164412590478073920,
  164412590478065730,
  164412590478065730,
  164412590477549760,
  164412590477549760,
  164412590477541570,
  164412590477541570,
  128392589552132160,
  128392589552132160,
  128392589552123970,
  128392589552123970,
  128392589551608000,
  128392589551608000,
  128392589551599810,
  128392589551599810,
  164412590478073920,
  164412590478073920,
  164412590477549760,
  164412590477549760,
  164412590478073920,
  164412590478073920,
  164412590477549760,
  164412590477549760,
  128392589552132160,
  128392589552132160,
  128392589551608000,
  128392589551608000,
  164412590478073920,
  164412590478073920,
  164412590477549760,
  164412590477549760,
  128392589552132160,
  128392589552132160,
  128392589551608000,
  128392589551608000,
  128392589552132160,
  128392589552132160,
  128392589552123970,
  128392589552123970,
  128392589551608000,
  128392589551608000,
  128392589551599810,
  128392589551599810,
  164412590478073920,
  164412590478073920,
  164412590477549760,
  164412590477549760,
  164412590478073920,
  164412590478073920,
  164412590477549760,
  164412590477549760,
  163849777963606080,
  163849777963606080,
  163849777963597890,
  163849777963597890,
  127829777037664320,
  127829777037664320,
  127829777037656130,
  127829777037656130,
  127829777037664320,
  127829777037664320,
  163849777963606080,
  163849777963606080,
  164412590478073920,
  164412590478073920,
  163849777963606080,
  163849777963606080,
  164412590478073920,
  164412590478073920,
  127829777037664320,
  127829777037664320,
  127829777037656130,
  127829777037656130,
  164412590478073920,
  164412590478073920,
  164412590478065730,
  164412590478065730,
  163849777963606080,
  163849777963606080,
  2283003892736064,
  2283003892736064,
  2283003892727874,
  2283003892727874,
  2283003892211904,
  2283003892211904,
  2283003892203714,
  2283003892203714,
  1720191378268224,
  1720191378268224,
  1720191378260034,
  1720191378260034,
  2283003892736064,
  2283003892736064,
  2283003892736064,
  2283003892736064,
  2283003892736064,
  2283003892736064,
  2283003892736064,
  2283003892736064,
  2283003892736064,
  2283003892736064,
  2283003892736064,
  2283003892736064,
  2283003892211904,
  2283003892211904,
  2283003892736064,
  2283003892736064,
  2283003892211904,
  2283003892211904,
  1720191378268224,
  1720191378268224,
  2283003892736064,
  2283003892736064,
  2283003892211904,
  2283003892211904,
  2283003892736064,
  2283003892736064,
  2283003892211904,
  2283003892211904,
  1720191378268224,
  1720191378268224,
  2283003892736064,
  2283003892736064,
  2283003892736064,
  2283003892736064,
  2283003892736064,
  2283003892736064,
  126140789738446912,
  126140789738446912,
  126140789738438722,
  126140789738438722,
  126140789737922752,
  126140789737922752,
  126140789737914562,
  126140789737914562,
  126140789738446912,
  126140789738446912,
  162160790664388672,
  162160790664388672,
  162160790664388672,
  162160790664388672,
  126140789738446912,
  126140789738446912,
  126140789737922752,
  126140789737922752,
  162160790664388672,
  162160790664388672,
  162160790664388672,
  162160790664388672,
  126140789738446912,
  126140789738446912,
  162160790664388672,
  162160790664388672,
  162160790664388672,
  162160790664388672,
  162160790664388672,
  162160790664388672,
  162160790664388672,
  162160790664388672,
  126140789738446912,
  126140789738446912,
  126140789738438722,
  126140789738438722,
  126140789738446912,
  126140789738446912,
  126140789737922752,
  126140789737922752,
  162160790664388672,
  162160790664388672,
  162160790663864512,
  162160790663864512,
  162160790664388672,
  162160790664388672,
  162160790663864512,
  162160790663864512,
  164412590478073920,
  164412590478073920,
  164412590478073920,
  164412590478073920,
  164412590478073920,
  164412590478073920,
  127829777037664320,
  127829777037664320,
  164412590478073920,
  164412590478073920,
  127829777037664320,
  127829777037664320,
  164412590478073920,
  164412590478073920,
  164412590477549760,
  164412590477549760,
  127829777037664320,
  127829777037664320,
  127829777037140160,
  127829777037140160,
  164412590478073920,
  164412590478073920,
  164412590478073920,
  164412590478073920,
  127829777037664320,
  127829777037664320,
  127829777037656130,
  127829777037656130,
  128392589552132160,
  128392589552132160,
  128392589552123970,
  128392589552123970,
  128392589552132160,
  128392589552132160,
  128392589551608000,
  128392589551608000,
  164412590478073920,
  164412590478073920,
  164412590477549760,
  164412590477549760,
  164412590478073920,
  164412590478073920,
  164412590477549760,
  164412590477549760,
  127829777037664320,
  127829777037664320,
  164412590478073920,
  164412590478073920,
  163849777963606080,
  163849777963606080,
  127829777037664320,
  127829777037664320,
  164412590478073920,
  164412590478073920,
  164412590477549760,
  164412590477549760,
  164412590478073920,
  164412590478073920,
  164412590477549760,
  164412590477549760,
  163849777963606080,
  163849777963606080,
  164412590478073920,
  164412590478073920,
  164412590478073920,
  164412590478073920,
  128392589552132160,
  128392589552132160,
  164412590478073920,
  164412590478073920,
  128392589552132160,
  128392589552132160,
  128392589552132160,
  128392589552132160,
  128392589552123970,
  128392589552123970,
  128392589551608000,
  128392589551608000,
  128392589551599810,
  128392589551599810,
  127829777037664320,
  127829777037664320,
  127829777037656130,
  127829777037656130,
  128392589552132160,
  128392589552132160,
  164412590478073920,
  164412590478073920,
  164412590478073920,
  164412590478073920,
  128392589552132160,
  128392589552132160,
  164412590478073920,
  164412590478073920,
  128392589552132160,
  128392589552132160,
  128392589551608000,
  128392589551608000,
  164412590478073920,
  164412590478073920,
  164412590478073920,
  164412590478073920,
  164412590478073920,
  164412590478073920]

/-- Check ccsdt_t3_aabaab. C83 -/
theorem ccsdt_t3_aabaab : isZeroSpin kinds [aᵥ, bᵥ, cᵥ, iₒ, jₒ, kₒ] 4 [false, false, true, false, false, true]
    (Prog.outs [3, 4, 5, 0, 1, 2] (Prog.thin split_ccsdt_t3 (Prog.ideal (ccsdt_t3eqns_0 ++ ccsdt_t3eqns_1))))
    (Prog.scale (-1) (Prog.ideal (ccsdt_t3_aabaab)))
    (ccsdt_t3_aabaab_cert_0 ++ (ccsdt_t3_aabaab_cert_1 ++ (ccsdt_t3_aabaab_cert_2 ++ (ccsdt_t3_aabaab_cert_3 ++ (ccsdt_t3_aabaab_cert_4 ++ (ccsdt_t3_aabaab_cert_5)))))) = true := by decide +kernel

def ccsdt_t3_abbabb_cert_0 : List Nat := [417753473088,
  417753473088,
  417753464898,
  417753464898,
  417719910468,
  417686372418,
  31204079050816,
  31204079050816,
  31204079042626,
  31204079042626,
  31204045488196,
  31204011950146,
  128392589552132160,
  128392589552132160,
  163849777963606080,
  163849777963606080,
  128392589552123970,
  128392589552123970,
  128392589552123970,
  128392589552123970,
  128392589518569540,
  128392589485031490,
  128392589518569540,
  128392589485031490,
  164412590478073920,
  164412590478073920,
  163849777963606080,
  163849777963606080,
  127829777037664320,
  127829777037664320,
  164412590478065730,
  164412590478065730,
  128392589552123970,
  128392589552123970,
  164412590478065730,
  164412590478065730,
  164412590444511300,
  164412590410973250,
  128392589518569540,
  128392589485031490,
  164412590444511300,
  164412590410973250,
  2252217567158336,
  2252217567158336,
  2252217567150146,
  2252217567150146,
  1689405052682306,
  1689405052682306,
  2252217533595716,
  2252217500057666,
  1689405019127876,
  1689404985589826,
  31204079050816,
  31204079050816,
  31204078526656,
  31204078526656,
  31201931043136,
  31199784607936,
  30791762190400,
  30791762190400,
  30791761666240,
  30791761666240,
  30789614182720,
  30787467747520,
  163849777963606080,
  163849777963606080,
  128392589552132160,
  128392589552132160,
  163849777963081920,
  163849777963081920,
  163849777963081920,
  163849777963081920,
  163849775815598400,
  163849773669163200,
  163849775815598400,
  163849773669163200,
  164412590478073920,
  164412590478073920,
  128392589552132160,
  128392589552132160,
  127829777037664320,
  127829777037664320,
  164412590477549760,
  164412590477549760,
  163849777963081920,
  163849777963081920,
  164412590477549760,
  164412590477549760,
  164412588330066240,
  164412586183631040,
  163849775815598400,
  163849773669163200,
  164412588330066240,
  164412586183631040,
  162160378347528256,
  162160378347528256,
  162160378347004096,
  162160378347004096,
  126140377421062336,
  126140377421062336,
  162160376199520576,
  162160374053085376,
  126140375273578816,
  126140373127143616,
  31204079050816,
  31204079050816,
  31204079042626,
  31204079042626,
  31204045488196,
  31204011950146,
  31201932091456,
  31201932091456,
  31201932083266,
  31201932083266,
  31201898528836,
  31201864990786,
  31199784599746,
  31201931034946,
  31199751045316,
  31201863942466,
  164412590478073920,
  164412590478073920,
  163849777963606080,
  163849777963606080,
  128392589552123970,
  128392589552123970,
  127829777037656130,
  127829777037656130,
  128392589518569540,
  128392589485031490,
  127829777004101700,
  127829776970563650,
  164412588331114560,
  164412588331114560,
  163849775816646720,
  163849775816646720,
  128392587405164610,
  128392587405164610,
  127829774890696770,
  127829774890696770,
  128392587371610180,
  128392587338072130,
  127829774857142340,
  127829774823604290,
  164412586183622850,
  164412588330058050,
  164412586150068420,
  164412588262965570,
  162160790664388672,
  162160790664388672,
  126140789738438722,
  126140789738438722,
  162160790664380482,
  162160790664380482,
  126140789704884292,
  126140789671346242,
  162160790630826052,
  162160790597288002,
  162160788517429312,
  162160788517429312,
  126140787591479362,
  126140787591479362,
  162160788517421122,
  162160788517421122,
  126140787557924932,
  126140787524386882,
  162160788483866692,
  162160788450328642,
  162160786369945792,
  162160788516380992,
  162160786369945792,
  162160788516380992,
  126140785443995842,
  126140787590431042,
  126140785410441412,
  126140787523338562,
  164412590478073920,
  164412590478073920,
  164412590478073920,
  164412590478073920,
  164412590478065730,
  164412590478065730,
  127829777037656130,
  127829777037656130,
  164412590444511300,
  164412590410973250,
  127829777004101700,
  127829776970563650,
  164412588331114560,
  164412588331114560,
  164412588331114560,
  164412588331114560,
  164412588331106370,
  164412588331106370,
  127829774890696770,
  127829774890696770,
  164412588297551940,
  164412588264013890,
  127829774857142340,
  127829774823604290,
  164412586183622850,
  164412588330058050,
  164412586183622850,
  164412588330058050,
  164412586150068420,
  164412588262965570,
  164412586150068420,
  164412588262965570,
  162160790664388672,
  162160790664388672,
  162160790664380482,
  162160790664380482,
  126140789738438722,
  126140789738438722,
  162160790630826052,
  162160790597288002,
  126140789704884292,
  126140789671346242,
  162160788517429312,
  162160788517429312,
  162160788517421122,
  162160788517421122,
  126140787591479362,
  126140787591479362,
  162160788483866692,
  162160788450328642,
  126140787557924932,
  126140787524386882,
  162160786369937602,
  162160788516372802,
  126140785443995842,
  126140787590431042,
  162160786336383172,
  162160788449280322,
  126140785410441412,
  126140787523338562,
  163849777963606080,
  163849777963606080,
  127829777037664320,
  127829777037664320,
  164412590478073920,
  164412590478073920,
  164412590478065730,
  164412590478065730,
  164412590478065730,
  164412590478065730,
  128392589552123970,
  128392589552123970,
  164412590444511300,
  164412590410973250,
  164412590444511300,
  164412590410973250,
  128392589518569540,
  128392589485031490,
  163849775816646720,
  163849775816646720,
  127829774890704960,
  127829774890704960,
  164412588331114560,
  164412588331114560,
  164412588331106370,
  164412588331106370,
  164412588331106370,
  164412588331106370,
  128392587405164610,
  128392587405164610,
  164412588297551940,
  164412588264013890,
  164412588297551940,
  164412588264013890,
  128392587371610180,
  128392587338072130,
  163849773669155010,
  163849775815590210,
  127829772743213250,
  127829774889648450,
  164412586183622850,
  164412588330058050,
  163849773635600580,
  163849775748497730,
  127829772709658820,
  127829774822555970,
  164412586150068420,
  164412588262965570,
  417753473088,
  417753473088,
  417753464898,
  417753464898,
  417719910468,
  417686372418,
  415606513728,
  415606513728,
  415606505538,
  415606505538,
  415572951108,
  415539413058,
  413459022018,
  415605457218,
  413425467588,
  415538364738,
  164412590478073920,
  164412590478073920,
  128392589552123970,
  128392589552123970,
  128392589518569540,
  128392589485031490,
  164412588331114560,
  164412588331114560,
  128392587405164610,
  128392587405164610,
  128392587371610180,
  128392587338072130,
  163849777963081920,
  163849777963081920,
  127829777037131970,
  127829777037131970,
  127829777003577540,
  127829776970039490,
  163849775815598400,
  163849773669163200,
  127829774889648450,
  127829772743213250,
  127829774856094020,
  127829772676120770,
  164412586183622850,
  164412588330058050,
  164412586150068420,
  164412588262965570,
  163849773668630850,
  163849773668630850,
  163849773635076420,
  163849773601538370,
  162160790664388672,
  162160790664388672,
  126140789738438722,
  126140789738438722,
  126140789704884292,
  126140789671346242,
  162160788517429312,
  162160788517429312,
  126140787591479362,
  126140787591479362,
  126140787557924932,
  126140787524386882,
  162160790663856322,
  162160790663856322,
  162160790630301892,
  162160790596763842,
  162160788516372802,
  162160786369937602,
  162160788482818372,
  162160786302845122,
  162160786369945792,
  162160788516380992,
  126140785443995842,
  126140787590431042,
  126140785410441412,
  126140787523338562,
  162160786369421632,
  162160786369421632,
  126140785443471682,
  126140785443471682,
  126140785409917252,
  126140785376379202,
  2283003892736064,
  2283003892736064,
  2283003859189824,
  2283003859189824,
  2283003825635394,
  2283003859173444,
  2283001745776704,
  2283001745776704,
  2283001712230464,
  2283001712230464,
  2283001678676034,
  2283001712214084,
  1720191377744064,
  1720191377744064,
  1720191344197824,
  1720191344197824,
  1720191310643394,
  1720191344181444,
  1720189230260544,
  1720187083825344,
  1720189196714304,
  1720187050279104,
  1720189163159874,
  1720187050262724,
  2282999598293184,
  2283001744728384,
  2282999564746944,
  2283001711182144,
  1720187083301184,
  1720187083301184,
  1720187049754944,
  1720187049754944,
  164412590478073920,
  164412590478073920,
  164412590478073920,
  164412590478073920]
def ccsdt_t3_abbabb_cert_1 : List Nat := [164412590444527680,
  164412590444527680,
  164412590444527680,
  164412590444527680,
  128392589485031490,
  128392589518569540,
  128392587405172800,
  128392587405172800,
  164412588331114560,
  164412588331114560,
  128392587371626560,
  128392587371626560,
  164412588297568320,
  164412588297568320,
  128392587338072130,
  128392587371610180,
  127829777037140160,
  127829777037140160,
  164412590477549760,
  164412590477549760,
  127829777003593920,
  127829777003593920,
  164412590444003520,
  164412590444003520,
  127829774889656640,
  127829772743221440,
  164412588330066240,
  164412586183631040,
  127829774856110400,
  127829772709675200,
  164412588296520000,
  164412586150084800,
  163849773669163200,
  163849775815598400,
  163849773635616960,
  163849775782052160,
  127829772676120770,
  127829774856094020,
  128392585190588610,
  128392587370561860,
  163849773668639040,
  163849773668639040,
  163849773635092800,
  163849773635092800,
  127829772675596610,
  127829772709134660,
  128392585190064450,
  128392585223602500,
  31204079050816,
  31204079050816,
  31204045504576,
  31204045504576,
  31204011950146,
  31204045488196,
  31201932091456,
  31201932091456,
  31201898545216,
  31201898545216,
  31201864990786,
  31201898528836,
  31204078526656,
  31204078526656,
  31204044980416,
  31204044980416,
  31201931043136,
  31199784607936,
  31201897496896,
  31199751061696,
  31199784607936,
  31201931043136,
  31199751061696,
  31201897496896,
  31199717507266,
  31201897480516,
  31199784083776,
  31199784083776,
  31199750537536,
  31199750537536,
  31199716983106,
  31199750521156,
  126140789738446912,
  126140789738446912,
  162160790664388672,
  162160790664388672,
  126140789704900672,
  126140789704900672,
  162160790630842432,
  162160790630842432,
  126140787591487552,
  126140787591487552,
  162160788517429312,
  162160788517429312,
  126140787557941312,
  126140787557941312,
  162160788483883072,
  162160788483883072,
  162160790663864512,
  162160790663864512,
  162160790630318272,
  162160790630318272,
  126140789670822082,
  126140789704360132,
  126140789670822082,
  126140789704360132,
  162160788516380992,
  162160786369945792,
  162160788482834752,
  162160786336399552,
  126140787523338562,
  126140785410441412,
  126140787523338562,
  126140785410441412,
  162160786369945792,
  162160788516380992,
  162160786369945792,
  162160788516380992,
  162160786336399552,
  162160788482834752,
  162160786336399552,
  162160788482834752,
  126140785376903362,
  126140787556876612,
  126140785443479872,
  126140785443479872,
  162160786369421632,
  162160786369421632,
  126140785409933632,
  126140785409933632,
  162160786335875392,
  162160786335875392,
  126140785376379202,
  126140785409917252,
  164412590478073920,
  164412590478073920,
  128392589552132160,
  128392589552132160,
  164412588331114560,
  164412588331114560,
  128392587405172800,
  128392587405172800,
  163849777963081920,
  163849777963081920,
  127829777037140160,
  127829777037140160,
  163849775815598400,
  163849773669163200,
  127829774889656640,
  127829772743221440,
  164412586183631040,
  164412588330066240,
  163849773668639040,
  163849773668639040,
  162160790664388672,
  162160790664388672,
  126140789738446912,
  126140789738446912,
  162160788517429312,
  162160788517429312,
  126140787591487552,
  126140787591487552,
  162160790663864512,
  162160790663864512,
  162160788516380992,
  162160786369945792,
  162160786369945792,
  162160788516380992,
  126140785444004032,
  126140787590439232,
  162160786369421632,
  162160786369421632,
  126140785443479872,
  126140785443479872,
  164412590478073920,
  164412590478073920,
  164412590444527680,
  164412590444527680,
  128392589552123970,
  128392589552123970,
  128392589518569540,
  128392589485031490,
  163849777963081920,
  163849777963081920,
  163849777929535680,
  163849777929535680,
  127829777037131970,
  127829777037131970,
  127829777003577540,
  127829776970039490,
  164412590410449090,
  164412590443987140,
  128392589484499140,
  128392589484499140,
  163849775815598400,
  163849773669163200,
  163849775782052160,
  163849773635616960,
  127829774889648450,
  127829772743213250,
  127829774856094020,
  127829772676120770,
  164412588262965570,
  164412586150068420,
  128392587337015620,
  128392585190580420,
  2283003892736064,
  2283003892736064,
  2283003859189824,
  2283003859189824,
  2283003825635394,
  2283003859173444,
  2283003825627204,
  2283003825627204,
  1720191377744064,
  1720191377744064,
  1720191344197824,
  1720191344197824,
  2283003892203714,
  2283003892203714,
  2283003858649284,
  2283003825111234,
  1720191310643394,
  1720191344181444,
  1720191310635204,
  1720191310635204,
  1720189230260544,
  1720187083825344,
  1720189196714304,
  1720187050279104,
  2283001744720194,
  2282999598284994,
  2283001711165764,
  2282999531192514,
  1720189163159874,
  1720187050262724,
  1720189163151684,
  1720187016716484,
  164412590478073920,
  164412590478073920,
  164412590478073920,
  164412590478073920,
  128392589552123970,
  128392589552123970,
  128392589518569540,
  128392589485031490,
  163849777963081920,
  163849777963081920,
  127829777037131970,
  127829777037131970,
  164412590477541570,
  164412590477541570,
  127829777003577540,
  127829776970039490,
  164412590443987140,
  164412590410449090,
  163849775815598400,
  163849773669163200,
  127829774889648450,
  127829772743213250,
  164412588330058050,
  164412586183622850,
  127829774856094020,
  127829772676120770,
  164412588296503620,
  164412586116530370,
  164412590478065730,
  164412590478065730,
  128392589552123970,
  128392589552123970,
  164412590444511300,
  164412590410973250,
  128392589518569540,
  128392589485031490,
  164412590477549760,
  164412590477549760,
  163849777963073730,
  163849777963073730,
  127829777037131970,
  127829777037131970,
  163849777929519300,
  163849777895981250,
  127829777003577540,
  127829776970039490,
  164412588330066240,
  164412586183631040,
  163849775815590210,
  163849773669155010,
  127829774889648450,
  127829772743213250,
  163849775782035780,
  163849773602062530,
  127829774856094020,
  127829772676120770,
  2252217567150146,
  2252217567150146,
  2252217533595716,
  2252217500057666,
  2252217566634176,
  2252217566634176,
  1689405052158146,
  1689405052158146,
  1689405018603716,
  1689404985065666,
  2252215419150656,
  2252213272715456,
  1689402904674626,
  1689400758239426,
  1689402871120196,
  1689400691146946,
  162160378347520066,
  162160378347520066,
  162160378313965636,
  162160378280427586,
  162160378347004096,
  162160378347004096,
  126140377421054146,
  126140377421054146,
  126140377387499716,
  126140377353961666,
  162160376199520576,
  162160374053085376,
  126140375273570626,
  126140373127135426,
  126140375240016196,
  126140373060042946,
  164412590478073920,
  164412590478073920,
  164412590478073920,
  164412590478073920,
  127829777037664320,
  127829777037664320,
  164412590478073920,
  164412590478073920,
  128392589552123970,
  128392589552123970,
  128392589518569540,
  128392589485031490,
  163849777963081920,
  163849777963081920,
  164412590477541570,
  164412590477541570,
  164412590477541570,
  164412590477541570,
  127829777037131970,
  127829777037131970,
  164412590477541570,
  164412590477541570,
  164412590443987140,
  164412590410449090,
  164412590443987140,
  164412590410449090,
  127829777003577540,
  127829776970039490,
  164412590443987140,
  164412590410449090,
  163849775815598400,
  163849773669163200,
  164412588330058050,
  164412586183622850,
  164412588330058050,
  164412586183622850,
  127829774889648450,
  127829772743213250,
  164412588330058050,
  164412586183622850,
  164412588296503620,
  164412586116530370,
  164412588296503620,
  164412586116530370,
  127829774856094020,
  127829772676120770,
  164412588296503620,
  164412586116530370,
  2283003892736064,
  2283003892736064,
  2283003859189824,
  2283003859189824,
  2283003825635394,
  2283003859173444,
  2283003825635394,
  2283003859173444,
  1720191377744064,
  1720191377744064,
  2283003892211904,
  2283003892211904,
  1720191344197824,
  1720191344197824,
  2283003858665664,
  2283003858665664,
  1720191310643394,
  1720191344181444,
  1720189230260544,
  1720187083825344,
  2283001744728384,
  2282999598293184,
  1720189196714304,
  1720187050279104,
  2283001711182144,
  2282999564746944,
  1720189163159874,
  1720187050262724]
def ccsdt_t3_abbabb_cert_2 : List Nat := [128392589552132160,
  128392589552132160,
  127829777037664320,
  127829777037664320,
  164412590478073920,
  164412590478073920,
  128392589518585920,
  128392589518585920,
  127829777004118080,
  127829777004118080,
  164412590444527680,
  164412590444527680,
  164412590477549760,
  164412590477549760,
  164412590477549760,
  164412590477549760,
  163849777963081920,
  163849777963081920,
  164412590444003520,
  164412590444003520,
  164412590444003520,
  164412590444003520,
  163849777929535680,
  163849777929535680,
  128392589484507330,
  128392589518045380,
  127829776970039490,
  127829777003577540,
  164412590410449090,
  164412590443987140,
  164412588330066240,
  164412586183631040,
  164412588330066240,
  164412586183631040,
  163849775815598400,
  163849773669163200,
  164412588296520000,
  164412586150084800,
  164412588296520000,
  164412586150084800,
  163849775782052160,
  163849773635616960,
  128392587337023810,
  128392585224126660,
  127829774822555970,
  127829772709658820,
  164412588262965570,
  164412586150068420,
  30791762190400,
  30791762190400,
  30791728644160,
  30791728644160,
  30791761666240,
  30791761666240,
  30791728120000,
  30791728120000,
  30791694565570,
  30791728103620,
  30789614182720,
  30787467747520,
  30789580636480,
  30787434201280,
  30789547082050,
  30787434184900,
  162160790664388672,
  162160790664388672,
  162160790630842432,
  162160790630842432,
  126140789738438722,
  126140789738438722,
  126140789704884292,
  126140789671346242,
  162160790597288002,
  162160790630826052,
  126140789671338052,
  126140789671338052,
  162160788517429312,
  162160788517429312,
  162160788483883072,
  162160788483883072,
  126140787591479362,
  126140787591479362,
  126140787557924932,
  126140787524386882,
  162160788450328642,
  162160788483866692,
  126140787524378692,
  126140787524378692,
  162160786369945792,
  162160788516380992,
  162160786336399552,
  162160788482834752,
  126140785443995842,
  126140787590431042,
  126140785410441412,
  126140787523338562,
  163849777963606080,
  163849777963606080,
  164412590478073920,
  164412590478073920,
  163849777930059840,
  163849777930059840,
  164412590444527680,
  164412590444527680,
  127829777037656130,
  127829777037656130,
  164412590478065730,
  164412590478065730,
  127829777004101700,
  127829776970563650,
  164412590444511300,
  164412590410973250,
  128392589485031490,
  128392589518569540,
  128392589485023300,
  128392589485023300,
  163849775816646720,
  163849775816646720,
  164412588331114560,
  164412588331114560,
  163849775783100480,
  163849775783100480,
  164412588297568320,
  164412588297568320,
  127829774890696770,
  127829774890696770,
  164412588331106370,
  164412588331106370,
  127829774857142340,
  127829774823604290,
  164412588297551940,
  164412588264013890,
  128392587338072130,
  128392587371610180,
  128392587338063940,
  128392587338063940,
  163849773669163200,
  163849775815598400,
  163849773635616960,
  163849775782052160,
  127829772676120770,
  127829774856094020,
  163849773602062530,
  163849775782035780,
  127829772676112580,
  127829774822547780,
  163849773602054340,
  163849775748489540,
  31204079050816,
  31204079050816,
  31204045504576,
  31204045504576,
  31204079042626,
  31204079042626,
  31204045488196,
  31204011950146,
  31204011950146,
  31204045488196,
  31204011941956,
  31204011941956,
  31201932091456,
  31201932091456,
  31201898545216,
  31201898545216,
  31201932083266,
  31201932083266,
  31201898528836,
  31201864990786,
  31201864990786,
  31201898528836,
  31201864982596,
  31201864982596,
  31199784607936,
  31201931043136,
  31199751061696,
  31201897496896,
  31199717507266,
  31201897480516,
  31199717499076,
  31201863934276,
  1720191378268224,
  1720191378268224,
  2283003892736064,
  2283003892736064,
  1720191344721984,
  1720191344721984,
  2283003859189824,
  2283003859189824,
  2283003892727874,
  2283003892727874,
  2283003859173444,
  2283003825635394,
  1720191311167554,
  1720191344705604,
  2283003825635394,
  2283003859173444,
  1720191311159364,
  1720191311159364,
  2283003825627204,
  2283003825627204,
  1720189231308864,
  1720189231308864,
  2283001745776704,
  2283001745776704,
  1720189197762624,
  1720189197762624,
  2283001712230464,
  2283001712230464,
  2283001745768514,
  2283001745768514,
  2283001712214084,
  2283001678676034,
  1720189164208194,
  1720189197746244,
  2283001678676034,
  2283001712214084,
  1720189164200004,
  1720189164200004,
  2283001678667844,
  2283001678667844,
  1720187083817154,
  1720189230252354,
  1720187083817154,
  1720189230252354,
  1720187050262724,
  1720189163159874,
  1720187050262724,
  1720189163159874,
  1720187016724674,
  1720189196697924,
  1720187016716484,
  1720189163151684,
  164412590478073920,
  164412590478073920,
  163849777963606080,
  163849777963606080,
  164412590444527680,
  164412590444527680,
  163849777930059840,
  163849777930059840,
  128392589552123970,
  128392589552123970,
  127829777037656130,
  127829777037656130,
  128392589518569540,
  128392589485031490,
  127829777004101700,
  127829776970563650,
  164412590410973250,
  164412590444511300,
  128392589485023300,
  128392589485023300,
  2283003892736064,
  2283003892736064,
  1720191378268224,
  1720191378268224,
  2283003859189824,
  2283003859189824,
  1720191344721984,
  1720191344721984,
  2283003892727874,
  2283003892727874,
  2283003859173444,
  2283003825635394,
  2283003825635394,
  2283003859173444,
  1720191311167554,
  1720191344705604,
  2283003825627204,
  2283003825627204,
  1720191311159364,
  1720191311159364,
  2283003892736064,
  2283003892736064,
  2283003892736064,
  2283003892736064,
  2283003859189824,
  2283003859189824,
  2283003859189824,
  2283003859189824,
  2283003825635394,
  2283003859173444,
  1720191311167554,
  1720191344705604,
  164412590478073920,
  164412590478073920,
  163849777963606080,
  163849777963606080,
  128392589552132160,
  128392589552132160,
  127829777037664320,
  127829777037664320,
  164412590444527680,
  164412590444527680,
  163849777930059840,
  163849777930059840,
  128392589518585920,
  128392589518585920,
  127829777004118080,
  127829777004118080,
  164412590410973250,
  164412590444511300,
  162160790664388672,
  162160790664388672,
  162160790664388672,
  162160790664388672,
  162160788517429312,
  162160788517429312,
  162160788517429312,
  162160788517429312,
  162160786369945792,
  162160788516380992,
  126140785444004032,
  126140787590439232,
  164412590478073920,
  164412590478073920,
  128392589552132160,
  128392589552132160,
  163849777963606080,
  163849777963606080,
  127829777037664320,
  127829777037664320,
  164412588331114560,
  164412588331114560,
  128392587405172800,
  128392587405172800,
  163849775816646720,
  163849775816646720,
  127829774890704960,
  127829774890704960,
  164412586183631040,
  164412588330066240,
  2283003892736064,
  2283003892736064,
  1720191378268224,
  1720191378268224,
  2283003859189824,
  2283003859189824,
  1720191344721984,
  1720191344721984,
  2283003825635394,
  2283003859173444,
  1720191311167554,
  1720191344705604,
  2283001745776704,
  2283001745776704,
  1720189231308864,
  1720189231308864,
  2283001712230464,
  2283001712230464,
  1720189197762624,
  1720189197762624,
  2283001678676034,
  2283001712214084,
  1720189164208194,
  1720189197746244,
  2282999598293184,
  2283001744728384,
  2282999564746944,
  2283001711182144,
  31204079050816,
  31204079050816,
  31204079050816,
  31204079050816,
  31204045504576,
  31204045504576,
  31204045504576,
  31204045504576,
  31204011950146,
  31204045488196,
  31201932091456,
  31201932091456,
  31201932091456,
  31201932091456,
  31201898545216,
  31201898545216,
  31201898545216,
  31201898545216,
  31201864990786,
  31201898528836,
  31199784607936,
  31201931043136,
  31199751061696,
  31201897496896,
  31199717507266,
  31201897480516,
  31199717507266,
  31201897480516,
  417753473088,
  417753473088,
  417719926848,
  417719926848,
  417753473088,
  417753473088,
  30791762190400,
  30791762190400,
  30791762190400,
  30791762190400,
  30791762190400,
  30791762190400]
def ccsdt_t3_abbabb_cert_3 : List Nat := [31204079050816,
  31204079050816,
  31204045504576,
  31204045504576,
  31204079050816,
  31204079050816,
  31204079050816,
  31204079050816,
  31204079050816,
  31204079050816,
  31204079050816,
  31204079050816,
  31204079050816,
  31204079050816,
  31204079050816,
  31204079050816,
  31204079050816,
  31204079050816,
  31204079050816,
  31204079050816,
  31204079050816,
  31204079050816,
  31204079050816,
  31204079050816,
  31204079050816,
  31204079050816,
  31204079050816,
  31204079050816,
  417753473088,
  417753473088,
  417753473088,
  417753473088,
  417753473088,
  417753473088,
  417753473088,
  417753473088,
  417753473088,
  417753473088,
  417753473088,
  417753473088,
  417753473088,
  417753473088,
  417753473088,
  417753473088,
  30791762190400,
  30791762190400,
  30791728644160,
  30791728644160,
  30789615231040,
  30789615231040,
  30789581684800,
  30789581684800,
  30791762190400,
  30791762190400,
  30789615231040,
  30789615231040,
  30791762190400,
  30791762190400,
  30791728644160,
  30791728644160,
  1689405052690496,
  1689405052690496,
  1689405052690496,
  1689405052690496,
  2252217567158336,
  2252217567158336,
  1689405052690496,
  1689405052690496,
  2252217567158336,
  2252217567158336,
  31204079050816,
  31204079050816,
  31204045504576,
  31204045504576,
  31204079050816,
  31204079050816,
  31204045504576,
  31204045504576,
  31204079050816,
  31204079050816,
  31204045504576,
  31204045504576,
  31204079050816,
  31204079050816,
  31204079050816,
  31204079050816,
  31204079050816,
  31204079050816,
  31204079050816,
  31204079050816,
  31204045504576,
  31204045504576,
  31204079050816,
  31204079050816,
  31204045504576,
  31204045504576,
  31204079050816,
  31204079050816,
  162160378347528256,
  162160378347528256,
  162160376200568896,
  162160376200568896,
  126140377421586496,
  126140377421586496,
  126140375274627136,
  126140375274627136,
  162160378347528256,
  162160378347528256,
  2252217567158336,
  2252217567158336,
  2252217567158336,
  2252217567158336,
  1689405052690496,
  1689405052690496,
  2252217567158336,
  2252217567158336,
  1689405052690496,
  1689405052690496,
  2252217567158336,
  2252217567158336,
  1689405052690496,
  1689405052690496,
  1689405052690496,
  1689405052690496,
  31204079050816,
  31204079050816,
  31204079050816,
  31204079050816,
  31204079050816,
  31204079050816,
  31204079050816,
  31204079050816,
  31204045504576,
  31204045504576,
  31201932091456,
  31201932091456,
  31201898545216,
  31201898545216,
  31204079050816,
  31204079050816,
  31204079050816,
  31204079050816,
  31204079050816,
  31204079050816,
  31204079050816,
  31204079050816,
  31204045504576,
  31204045504576,
  31204079050816,
  31204079050816,
  31204045504576,
  31204045504576,
  31204079050816,
  31204079050816,
  31201932091456,
  31201932091456,
  31204079050816,
  31204079050816,
  31204045504576,
  31204045504576,
  31204079050816,
  31204079050816,
  31204045504576,
  31204045504576,
  31204079050816,
  31204079050816,
  31204079050816,
  31204079050816,
  31204079050816,
  31204079050816,
  31204079050816,
  31204079050816,
  31204045504576,
  31204045504576,
  31204079050816,
  31204079050816,
  31204045504576,
  31204045504576,
  31204079050816,
  31204079050816,
  31204079050816,
  31204079050816,
  31204079050816,
  31204079050816,
  31204045504576,
  31204045504576,
  31204079050816,
  31204079050816,
  126140377421586496,
  126140377421586496,
  126140377388040256,
  126140377388040256,
  126140375274627136,
  126140375274627136,
  126140375241080896,
  126140375241080896,
  162160378347528256,
  162160378347528256,
  162160376200568896,
  162160376200568896,
  162160378347528256,
  162160378347528256,
  162160378313982016,
  162160378313982016,
  2283003892736064,
  2283003892736064,
  2283003859189824,
  2283003859189824,
  2283003892736064,
  2283003892736064,
  2283003859189824,
  2283003859189824,
  1720191378268224,
  1720191378268224,
  1720191378268224,
  1720191378268224,
  2283003892736064,
  2283003892736064,
  2283003892736064,
  2283003892736064,
  2283003859189824,
  2283003859189824,
  1720191378268224,
  1720191378268224,
  1720191344721984,
  1720191344721984,
  2283003892736064,
  2283003892736064,
  2283003859189824,
  2283003859189824,
  1720191378268224,
  1720191378268224,
  1720191344721984,
  1720191344721984,
  2283003892736064,
  2283003892736064,
  2283003859189824,
  2283003859189824,
  1720191378268224,
  1720191378268224,
  1720191378268224,
  1720191378268224,
  2283003892736064,
  2283003892736064,
  2283003892736064,
  2283003892736064,
  1720191378268224,
  1720191378268224,
  1720191378268224,
  1720191378268224,
  1720191344721984,
  1720191344721984,
  2283003892736064,
  2283003892736064,
  2283003859189824,
  2283003859189824,
  2283003892736064,
  2283003892736064,
  2283003892736064,
  2283003892736064,
  1720191378268224,
  1720191378268224,
  1720191378268224,
  1720191378268224,
  162160790664388672,
  162160790664388672,
  126140789738446912,
  126140789738446912,
  162160790664388672,
  162160790664388672,
  162160790664388672,
  162160790664388672,
  126140789738446912,
  126140789738446912,
  126140789704900672,
  126140789704900672,
  126140789738446912,
  126140789738446912,
  126140789704900672,
  126140789704900672,
  162160790664388672,
  162160790664388672,
  162160790630842432,
  162160790630842432,
  162160790664388672,
  162160790664388672,
  162160790664388672,
  162160790664388672,
  162160790664388672,
  162160790664388672,
  162160790664388672,
  162160790664388672,
  162160788517429312,
  162160788517429312,
  126140789738446912,
  126140789738446912,
  126140787591487552,
  126140787591487552,
  162160790664388672,
  162160790664388672,
  126140789738446912,
  126140789738446912,
  162160790664388672,
  162160790664388672,
  162160790664388672,
  162160790664388672,
  162160790664388672,
  162160790664388672,
  126140789738446912,
  126140789738446912,
  126140789704900672,
  126140789704900672,
  162160790664388672,
  162160790664388672,
  162160790630842432,
  162160790630842432,
  162160790664388672,
  162160790664388672,
  162160790664388672,
  162160790664388672,
  126140789738446912,
  126140789738446912,
  162160790664388672,
  162160790664388672,
  164412590478073920,
  164412590478073920,
  164412590444527680,
  164412590444527680,
  128392589552132160,
  128392589552132160,
  128392589518585920,
  128392589518585920,
  164412590478073920,
  164412590478073920,
  164412590444527680,
  164412590444527680,
  164412590478073920,
  164412590478073920,
  163849777963606080,
  163849777963606080,
  127829777037664320,
  127829777037664320,
  163849777963606080,
  163849777963606080,
  163849777963606080,
  163849777963606080,
  164412590478073920,
  164412590478073920,
  127829777037664320,
  127829777037664320,
  128392589552132160,
  128392589552132160,
  163849777963606080,
  163849777963606080,
  164412590478073920,
  164412590478073920,
  127829777037664320,
  127829777037664320,
  128392589552132160,
  128392589552132160,
  163849777963606080,
  163849777963606080,
  127829777037664320,
  127829777037664320,
  128392589552132160,
  128392589552132160,
  163849777963606080,
  163849777963606080,
  164412590478073920,
  164412590478073920,
  163849777963606080,
  163849777963606080,
  128392589552132160,
  128392589552132160,
  128392589518585920,
  128392589518585920,
  164412590478073920,
  164412590478073920,
  164412590444527680,
  164412590444527680,
  164412590478073920,
  164412590478073920,
  164412590444527680,
  164412590444527680,
  127829777037664320,
  127829777037664320,
  127829777004118080,
  127829777004118080,
  164412590478073920,
  164412590478073920,
  164412590444527680,
  164412590444527680,
  164412590478073920,
  164412590478073920,
  164412590478073920,
  164412590478073920,
  127829777037664320,
  127829777037664320,
  164412590478073920,
  164412590478073920]
def ccsdt_t3_abbabb_cert_4 : List Nat := [163849777963606080,
  163849777963606080,
  127829777037664320,
  127829777037664320,
  128392589552132160,
  128392589552132160,
  163849777963606080,
  163849777963606080,
  127829777037664320,
  127829777037664320,
  128392589552132160,
  128392589552132160,
  163849777963606080,
  163849777963606080,
  163849777963606080,
  163849777963606080,
  163849777963606080,
  163849777963606080,
  164412590478073920,
  164412590478073920,
  127829777037664320,
  127829777037664320,
  128392589552132160,
  128392589552132160,
  163849777963606080,
  163849777963606080,
  163849777963606080,
  163849777963606080,
  163849777963606080,
  163849777963606080,
  164412590478073920,
  164412590478073920,
  163849777963606080,
  163849777963606080,
  164412590478073920,
  164412590478073920,
  163849777963606080,
  163849777963606080,
  164412590478073920,
  164412590478073920,
  164412590444527680,
  164412590444527680,
  164412590478073920,
  164412590478073920,
  164412590444527680,
  164412590444527680,
  127829777037664320,
  127829777037664320,
  127829777004118080,
  127829777004118080,
  164412590478073920,
  164412590478073920,
  164412590444527680,
  164412590444527680,
  163849777963606080,
  163849777963606080,
  127829777037664320,
  127829777037664320,
  128392589552132160,
  128392589552132160,
  163849777963606080,
  163849777963606080,
  163849777963606080,
  163849777963606080,
  163849777963606080,
  163849777963606080,
  164412590478073920,
  164412590478073920,
  163849777963606080,
  163849777963606080,
  163849777963606080,
  163849777963606080,
  164412590478073920,
  164412590478073920,
  163849777963606080,
  163849777963606080,
  163849775816646720,
  163849775816646720,
  127829777037664320,
  127829777037664320,
  127829774890704960,
  127829774890704960,
  164412590478073920,
  164412590478073920,
  164412588331114560,
  164412588331114560,
  128392589552132160,
  128392589552132160,
  128392587405172800,
  128392587405172800,
  164412590478073920,
  164412590478073920,
  164412590444527680,
  164412590444527680,
  164412588331114560,
  164412588331114560,
  164412588297568320,
  164412588297568320,
  164412590478073920,
  164412590478073920,
  164412590444527680,
  164412590444527680,
  164412588331114560,
  164412588331114560,
  164412588297568320,
  164412588297568320,
  128392589552132160,
  128392589552132160,
  128392589518585920,
  128392589518585920,
  128392587405172800,
  128392587405172800,
  128392587371626560,
  128392587371626560,
  163849777963606080,
  163849777963606080,
  163849775816646720,
  163849775816646720,
  127829777037664320,
  127829777037664320,
  127829774890704960,
  127829774890704960,
  164412590478073920,
  164412590478073920,
  164412588331114560,
  164412588331114560,
  163849777963606080,
  163849777963606080,
  163849777963606080,
  163849777963606080,
  163849777930059840,
  163849777930059840,
  127829777037664320,
  127829777037664320,
  127829777004118080,
  127829777004118080,
  164412590478073920,
  164412590478073920,
  164412590444527680,
  164412590444527680,
  2283003892736064,
  2283003892736064,
  1720191378268224,
  1720191378268224,
  2283003892736064,
  2283003892736064,
  2283003892736064,
  2283003892736064,
  1720191378268224,
  1720191378268224,
  1720191378268224,
  1720191378268224,
  1720191344721984,
  1720191344721984,
  1720191378268224,
  1720191378268224,
  1720191344721984,
  1720191344721984,
  2283003892736064,
  2283003892736064,
  2283003859189824,
  2283003859189824,
  2283003892736064,
  2283003892736064,
  1720191378268224,
  1720191378268224,
  1720191378268224,
  1720191378268224,
  1720191378268224,
  1720191378268224,
  1720191344721984,
  1720191344721984,
  2283003892736064,
  2283003892736064,
  2283003859189824,
  2283003859189824,
  2283003892736064,
  2283003892736064,
  1720191378268224,
  1720191378268224,
  2283003892736064,
  2283003892736064,
  2283003892736064,
  2283003892736064,
  1720191378268224,
  1720191378268224,
  2283003892736064,
  2283003892736064,
  1720191378268224,
  1720191378268224,
  1720191378268224,
  1720191378268224,
  2283003892736064,
  2283003892736064,
  2283003859189824,
  2283003859189824,
  2283003892736064,
  2283003892736064,
  2283003859189824,
  2283003859189824,
  1720191378268224,
  1720191378268224,
  1720191344721984,
  1720191344721984,
  1720191378268224,
  1720191378268224,
  2283003892736064,
  2283003892736064,
  2283003892736064,
  2283003892736064,
  2283003859189824,
  2283003859189824,
  1720191378268224,
  1720191378268224,
  1720191344721984,
  1720191344721984,
  1720191378268224,
  1720191378268224,
  2283003892736064,
  2283003892736064,
  162160790664388672,
  162160790664388672,
  162160790664388672,
  162160790664388672,
  126140789738446912,
  126140789738446912,
  162160790664388672,
  162160790664388672,
  126140789738446912,
  126140789738446912,
  162160790664388672,
  162160790664388672,
  126140789738446912,
  126140789738446912,
  162160790664388672,
  162160790664388672,
  126140789738446912,
  126140789738446912,
  162160790664388672,
  162160790664388672,
  162160790630842432,
  162160790630842432,
  126140789738446912,
  126140789738446912,
  126140789704900672,
  126140789704900672,
  126140789738446912,
  126140789738446912,
  126140789704900672,
  126140789704900672,
  162160790664388672,
  162160790664388672,
  162160790664388672,
  162160790664388672,
  162160790664388672,
  162160790664388672,
  126140789738446912,
  126140789738446912,
  162160790664388672,
  162160790664388672,
  162160790664388672,
  162160790664388672,
  126140789738446912,
  126140789738446912,
  162160790664388672,
  162160790664388672,
  162160790664388672,
  162160790664388672,
  162160790664388672,
  162160790664388672,
  126140789738446912,
  126140789738446912,
  162160790664388672,
  162160790664388672,
  162160790664388672,
  162160790664388672,
  162160790664388672,
  162160790664388672,
  126140789738446912,
  126140789738446912,
  162160790664388672,
  162160790664388672,
  126140789738446912,
  126140789738446912,
  126140789738446912,
  126140789738446912,
  126140789704900672,
  126140789704900672,
  162160790664388672,
  162160790664388672,
  162160790664388672,
  162160790664388672,
  126140789738446912,
  126140789738446912,
  162160790664388672,
  162160790664388672,
  126140789738446912,
  126140789738446912,
  162160790664388672,
  162160790664388672,
  164412590478073920,
  164412590478073920,
  164412590478073920,
  164412590478073920,
  164412590478073920,
  164412590478073920,
  164412590478073920,
  164412590478073920,
  164412590478073920,
  164412590478073920,
  127829777037664320,
  127829777037664320,
  164412590478073920,
  164412590478073920,
  164412590478073920,
  164412590478073920,
  164412590478073920,
  164412590478073920,
  127829777037664320,
  127829777037664320,
  164412590478073920,
  164412590478073920,
  164412590478073920,
  164412590478073920,
  164412590478073920,
  164412590478073920,
  127829777037664320,
  127829777037664320,
  164412590478073920,
  164412590478073920,
  127829777037664320,
  127829777037664320,
  128392589552132160,
  128392589552132160,
  163849777963606080,
  163849777963606080,
  128392589552132160,
  128392589552132160,
  164412590478073920,
  164412590478073920,
  127829777037664320,
  127829777037664320,
  163849777963606080,
  163849777963606080,
  163849777930059840,
  163849777930059840,
  127829777037664320,
  127829777037664320,
  127829777004118080,
  127829777004118080,
  128392589552132160,
  128392589552132160,
  128392589518585920,
  128392589518585920,
  128392589552132160,
  128392589552132160,
  163849777963606080,
  163849777963606080,
  127829777037664320,
  127829777037664320,
  127829777037664320,
  127829777037664320,
  127829777004118080,
  127829777004118080,
  128392589552132160,
  128392589552132160,
  128392589518585920,
  128392589518585920,
  128392589552132160,
  128392589552132160,
  163849777963606080,
  163849777963606080,
  128392589552132160,
  128392589552132160,
  164412590478073920,
  164412590478073920,
  127829777037664320,
  127829777037664320,
  128392589552132160,
  128392589552132160,
  163849777963606080,
  163849777963606080,
  127829777037664320,
  127829777037664320,
  164412590478073920,
  164412590478073920,
  164412590444527680,
  164412590444527680,
  164412590478073920,
  164412590478073920,
  164412590444527680,
  164412590444527680,
  163849777963606080,
  163849777963606080,
  163849777930059840,
  163849777930059840,
  163849777963606080,
  163849777963606080,
  164412590478073920,
  164412590478073920]
def ccsdt_t3_abbabb_cert_5 : List Nat := [164412590478073920,
  164412590478073920,
  164412590444527680,
  164412590444527680,
  163849777963606080,
  163849777963606080,
  163849777930059840,
  163849777930059840,
  163849777963606080,
  163849777963606080,
  164412590478073920,
  164412590478073920,
  164412590478073920,
  164412590478073920,
  164412590478073920,
  164412590478073920,
  128392589552132160,
  128392589552132160,
  163849777963606080,
  163849777963606080,
  127829777037664320,
  127829777037664320,
  164412590478073920,
  164412590478073920,
  128392589552132160,
  128392589552132160,
  163849777963606080,
  163849777963606080,
  127829777037664320,
  127829777037664320,
  164412590478073920,
  164412590478073920,
  164412590444527680,
  164412590444527680,
  128392589552132160,
  128392589552132160,
  128392589518585920,
  128392589518585920,
  127829777037664320,
  127829777037664320,
  127829777004118080,
  127829777004118080,
  164412590478073920,
  164412590478073920,
  163849777963606080,
  163849777963606080,
  164412590478073920,
  164412590478073920,
  128392589552132160,
  128392589552132160,
  164412590478073920,
  164412590478073920,
  164412590478073920,
  164412590478073920,
  127829777037664320,
  127829777037664320,
  164412590478073920,
  164412590478073920,
  164412590478073920,
  164412590478073920,
  164412590478073920,
  164412590478073920,
  127829777037664320,
  127829777037664320,
  164412590478073920,
  164412590478073920,
  164412590478073920,
  164412590478073920,
  163849777963606080,
  163849777963606080,
  127829777037664320,
  127829777037664320,
  163849777963606080,
  163849777963606080,
  127829777037664320,
  127829777037664320,
  127829777037664320,
  127829777037664320,
  127829777004118080,
  127829777004118080,
  163849777963606080,
  163849777963606080,
  164412590478073920,
  164412590478073920,
  127829777037664320,
  127829777037664320,
  164412590478073920,
  164412590478073920,
  127829777037664320,
  127829777037664320,
  164412590478073920,
  164412590478073920,
  2283003892736064,
  2283003892736064,
  2283003892736064,
  2283003892736064,
  1720191378268224,
  1720191378268224,
  2283003892736064,
  2283003892736064,
  1720191378268224,
  1720191378268224,
  2283003892736064,
  2283003892736064,
  2283003859189824,
  2283003859189824,
  2283001745776704,
  2283001745776704,
  2283001712230464,
  2283001712230464,
  2283003892736064,
  2283003892736064,
  2283003859189824,
  2283003859189824,
  2283003892736064,
  2283003892736064,
  2283003892736064,
  2283003892736064,
  1720191378268224,
  1720191378268224,
  2283003892736064,
  2283003892736064,
  1720191378268224,
  1720191378268224,
  2283003892736064,
  2283003892736064,
  2283003859189824,
  2283003859189824,
  1720191378268224,
  1720191378268224,
  1720191344721984,
  1720191344721984,
  1720191378268224,
  1720191378268224,
  1720191344721984,
  1720191344721984,
  2283003892736064,
  2283003892736064,
  2283001745776704,
  2283001745776704,
  126140789738446912,
  126140789738446912,
  126140789738446912,
  126140789738446912,
  126140789738446912,
  126140789738446912,
  126140789738446912,
  126140789738446912,
  126140789704900672,
  126140789704900672,
  126140787591487552,
  126140787591487552,
  126140787557941312,
  126140787557941312,
  126140789738446912,
  126140789738446912,
  126140789738446912,
  126140789738446912,
  162160790664388672,
  162160790664388672,
  162160788517429312,
  162160788517429312,
  126140789738446912,
  126140789738446912,
  126140789704900672,
  126140789704900672,
  162160790664388672,
  162160790664388672,
  162160790630842432,
  162160790630842432,
  162160790664388672,
  162160790664388672,
  126140789738446912,
  126140789738446912,
  126140789738446912,
  126140789738446912,
  126140789738446912,
  126140789738446912,
  126140789704900672,
  126140789704900672,
  162160790664388672,
  162160790664388672,
  162160790630842432,
  162160790630842432,
  126140789738446912,
  126140789738446912,
  162160790664388672,
  162160790664388672,
  164412590478073920,
  164412590478073920,
  164412590444527680,
  164412590444527680,
  164412590478073920,
  164412590478073920,
  164412590444527680,
  164412590444527680,
  164412590478073920,
  164412590478073920,
  127829777037664320,
  127829777037664320,
  164412590478073920,
  164412590478073920,
  127829777037664320,
  127829777037664320,
  164412590478073920,
  164412590478073920,
  164412590478073920,
  164412590478073920,
  164412590478073920,
  164412590478073920,
  164412590478073920,
  164412590478073920,
  127829777037664320,
  127829777037664320,
  127829777037664320,
  127829777037664320,
  128392589552132160,
  128392589552132160,
  128392589552132160,
  128392589552132160,
  128392589518585920,
  128392589518585920,
  127829777037664320,
  127829777037664320,
  127829777004118080,
  127829777004118080,
  164412590478073920,
  164412590478073920,
  164412590444527680,
  164412590444527680,
  127829777037664320,
  127829777037664320,
  127829777004118080,
  127829777004118080,
  164412590478073920,
  164412590478073920,
  164412590444527680,
  164412590444527680,
  127829777037664320,
  127829777037664320,
  128392589552132160,
  128392589552132160,
  164412590478073920,
  164412590478073920,
  164412590478073920,
  164412590478073920,
  163849777963606080,
  163849777963606080,
  163849777963606080,
  163849777963606080,
  164412590478073920,
  164412590478073920,
  164412588331114560,
  164412588331114560,
  128392589552132160,
  128392589552132160,
  128392587405172800,
  128392587405172800,
  164412590478073920,
  164412590478073920,
  128392589552132160,
  128392589552132160,
  128392589552132160,
  128392589552132160,
  127829777037664320,
  127829777037664320,
  128392589552132160,
  128392589552132160,
  127829777037664320,
  127829777037664320,
  128392589552132160,
  128392589552132160,
  128392589518585920,
  128392589518585920,
  128392587405172800,
  128392587405172800,
  128392587371626560,
  128392587371626560,
  164412590478073920,
  164412590478073920,
  164412590444527680,
  164412590444527680,
  128392589552132160,
  128392589552132160,
  127829777037664320,
  127829777037664320,
  127829777037664320,
  127829777037664320,
  164412590478073920,
  164412590478073920,
  164412588331114560,
  164412588331114560]

/-- Check ccsdt_t3_abbabb. C83 -/
theorem ccsdt_t3_abbabb : isZeroSpin kinds [aᵥ, bᵥ, cᵥ, iₒ, jₒ, kₒ] 4 [false, true, true, false, true, true]
    (Prog.outs [3, 4, 5, 0, 1, 2] (Prog.thin split_ccsdt_t3 (Prog.ideal (ccsdt_t3eqns_0 ++ ccsdt_t3eqns_1))))
    (Prog.scale (-1) (Prog.ideal (ccsdt_t3_abbabb)))
    (ccsdt_t3_abbabb_cert_0 ++ (ccsdt_t3_abbabb_cert_1 ++ (ccsdt_t3_abbabb_cert_2 ++ (ccsdt_t3_abbabb_cert_3 ++ (ccsdt_t3_abbabb_cert_4 ++ (ccsdt_t3_abbabb_cert_5)))))) = true := by decide +kernel

def ccsdt_t3_bbbbbb_cert_0 : List Nat := [417753473088,
  417753473088,
  417753464898,
  417753464898,
  417719910468,
  417686372418,
  31204079050816,
  31204079050816,
  31204079042626,
  31204079042626,
  31204045488196,
  31204011950146,
  128392589552132160,
  128392589552132160,
  128392589552132160,
  128392589552132160,
  128392589552123970,
  128392589552123970,
  128392589552123970,
  128392589552123970,
  128392589518569540,
  128392589485031490,
  128392589518569540,
  128392589485031490,
  164412590478073920,
  164412590478073920,
  128392589552132160,
  128392589552132160,
  164412590478073920,
  164412590478073920,
  164412590478065730,
  164412590478065730,
  128392589552123970,
  128392589552123970,
  164412590478065730,
  164412590478065730,
  164412590444511300,
  164412590410973250,
  128392589518569540,
  128392589485031490,
  164412590444511300,
  164412590410973250,
  2252217567158336,
  2252217567158336,
  2252217567150146,
  2252217567150146,
  2252217533595716,
  2252217500057666,
  31204079050816,
  31204079050816,
  31204078526656,
  31204078526656,
  31201931043136,
  31199784607936,
  30791762190400,
  30791762190400,
  30791761666240,
  30791761666240,
  30789614182720,
  30787467747520,
  163849777963606080,
  163849777963606080,
  163849777963606080,
  163849777963606080,
  163849777963081920,
  163849777963081920,
  163849777963081920,
  163849777963081920,
  163849775815598400,
  163849773669163200,
  163849775815598400,
  163849773669163200,
  164412590478073920,
  164412590478073920,
  163849777963606080,
  163849777963606080,
  164412590478073920,
  164412590478073920,
  164412590477549760,
  164412590477549760,
  163849777963081920,
  163849777963081920,
  164412590477549760,
  164412590477549760,
  164412588330066240,
  164412586183631040,
  163849775815598400,
  163849773669163200,
  164412588330066240,
  164412586183631040,
  162160378347528256,
  162160378347528256,
  162160378347004096,
  162160378347004096,
  162160376199520576,
  162160374053085376,
  31204079050816,
  31204079050816,
  31204079042626,
  31204079042626,
  31204045488196,
  31204011950146,
  31201932091456,
  31201932091456,
  31201932083266,
  31201932083266,
  31201898528836,
  31201864990786,
  31199784607936,
  31201931043136,
  31199784599746,
  31201931034946,
  31199751045316,
  31201863942466,
  164412590478073920,
  164412590478073920,
  164412590478065730,
  164412590478065730,
  164412590444511300,
  164412590410973250,
  164412588331114560,
  164412588331114560,
  164412588331106370,
  164412588331106370,
  164412588297551940,
  164412588264013890,
  164412586183631040,
  164412588330066240,
  164412586183622850,
  164412588330058050,
  164412586150068420,
  164412588262965570,
  126140789738446912,
  126140789738446912,
  162160790664388672,
  162160790664388672,
  126140789738438722,
  126140789738438722,
  162160790664380482,
  162160790664380482,
  126140789704884292,
  126140789671346242,
  162160790630826052,
  162160790597288002,
  126140787591487552,
  126140787591487552,
  162160788517429312,
  162160788517429312,
  126140787591479362,
  126140787591479362,
  162160788517421122,
  162160788517421122,
  126140787557924932,
  126140787524386882,
  162160788483866692,
  162160788450328642,
  126140785444004032,
  126140787590439232,
  162160786369945792,
  162160788516380992,
  126140785443995842,
  126140787590431042,
  162160786369937602,
  162160788516372802,
  126140785410441412,
  126140787523338562,
  162160786336383172,
  162160788449280322,
  164412590478073920,
  164412590478073920,
  164412590478073920,
  164412590478073920,
  164412590478065730,
  164412590478065730,
  164412590478065730,
  164412590478065730,
  164412590444511300,
  164412590410973250,
  164412590444511300,
  164412590410973250,
  164412588331114560,
  164412588331114560,
  164412588331114560,
  164412588331114560,
  164412588331106370,
  164412588331106370,
  164412588331106370,
  164412588331106370,
  164412588297551940,
  164412588264013890,
  164412588297551940,
  164412588264013890,
  164412586183631040,
  164412588330066240,
  164412586183631040,
  164412588330066240,
  164412586183622850,
  164412588330058050,
  164412586183622850,
  164412588330058050,
  164412586150068420,
  164412588262965570,
  164412586150068420,
  164412588262965570,
  162160790664388672,
  162160790664388672,
  162160790664380482,
  162160790664380482,
  162160790630826052,
  162160790597288002,
  162160788517429312,
  162160788517429312,
  162160788517421122,
  162160788517421122,
  162160788483866692,
  162160788450328642,
  162160786369945792,
  162160788516380992,
  162160786369937602,
  162160788516372802,
  162160786336383172,
  162160788449280322,
  163849777963606080,
  163849777963606080,
  127829777037664320,
  127829777037664320,
  164412590478073920,
  164412590478073920,
  163849777963597890,
  163849777963597890,
  127829777037656130,
  127829777037656130,
  164412590478065730,
  164412590478065730,
  163849777930043460,
  163849777896505410,
  127829777004101700,
  127829776970563650,
  164412590444511300,
  164412590410973250,
  163849775816646720,
  163849775816646720,
  127829774890704960,
  127829774890704960,
  164412588331114560,
  164412588331114560,
  163849775816638530,
  163849775816638530,
  127829774890696770,
  127829774890696770,
  164412588331106370,
  164412588331106370,
  163849775783084100,
  163849775749546050,
  127829774857142340,
  127829774823604290,
  164412588297551940,
  164412588264013890,
  163849773669163200,
  163849775815598400,
  127829772743221440,
  127829774889656640,
  164412586183631040,
  164412588330066240,
  163849773669155010,
  163849775815590210,
  127829772743213250,
  127829774889648450,
  164412586183622850,
  164412588330058050,
  163849773635600580,
  163849775748497730,
  127829772709658820,
  127829774822555970,
  164412586150068420,
  164412588262965570,
  417753473088,
  417753473088,
  417753464898,
  417753464898,
  417719910468,
  417686372418,
  415606513728,
  415606513728,
  415606505538,
  415606505538,
  415572951108,
  415539413058,
  413459030208,
  415605465408,
  413459022018,
  415605457218,
  413425467588,
  415538364738,
  164412590478073920,
  164412590478073920,
  164412590478065730,
  164412590478065730,
  164412590444511300,
  164412590410973250,
  164412588331114560,
  164412588331114560,
  164412588331106370,
  164412588331106370,
  164412588297551940,
  164412588264013890,
  163849777963081920,
  163849777963081920,
  163849777963073730,
  163849777963073730,
  163849777929519300,
  163849777895981250,
  163849775815598400,
  163849773669163200,
  163849775815590210,
  163849773669155010,
  163849775782035780,
  163849773602062530,
  164412586183631040,
  164412588330066240,
  164412586183622850,
  164412588330058050,
  164412586150068420,
  164412588262965570,
  163849773668639040,
  163849773668639040,
  163849773668630850,
  163849773668630850,
  163849773635076420,
  163849773601538370,
  162160790664388672,
  162160790664388672,
  162160790664380482,
  162160790664380482,
  162160790630826052,
  162160790597288002,
  162160788517429312,
  162160788517429312,
  162160788517421122,
  162160788517421122,
  162160788483866692,
  162160788450328642,
  162160790663864512,
  162160790663864512,
  162160790663856322,
  162160790663856322,
  162160790630301892,
  162160790596763842,
  162160788516380992,
  162160786369945792,
  162160788516372802,
  162160786369937602,
  162160788482818372,
  162160786302845122,
  162160786369945792,
  162160788516380992,
  162160786369937602,
  162160788516372802,
  162160786336383172,
  162160788449280322,
  162160786369421632,
  162160786369421632,
  162160786369413442,
  162160786369413442,
  162160786335859012,
  162160786302320962,
  2283003892736064,
  2283003892736064,
  2283003859189824,
  2283003859189824,
  2283003825635394,
  2283003859173444,
  2283001745776704,
  2283001745776704,
  2283001712230464,
  2283001712230464,
  2283001678676034,
  2283001712214084,
  1720191377744064,
  1720191377744064,
  1720191344197824,
  1720191344197824,
  1720191310643394,
  1720191344181444,
  1720189230260544,
  1720187083825344,
  1720189196714304,
  1720187050279104,
  1720189163159874,
  1720187050262724,
  2282999598293184,
  2283001744728384,
  2282999564746944,
  2283001711182144,
  2282999531192514,
  2283001711165764,
  1720187083301184,
  1720187083301184,
  1720187049754944,
  1720187049754944]
def ccsdt_t3_bbbbbb_cert_1 : List Nat := [1720187016200514,
  1720187049738564,
  127829777037664320,
  127829777037664320,
  164412590478073920,
  164412590478073920,
  127829777004118080,
  127829777004118080,
  164412590444527680,
  164412590444527680,
  127829776970563650,
  127829777004101700,
  164412590410973250,
  164412590444511300,
  127829774890704960,
  127829774890704960,
  128392587405172800,
  128392587405172800,
  127829774857158720,
  127829774857158720,
  128392587371626560,
  128392587371626560,
  127829774823604290,
  127829774857142340,
  128392587338072130,
  128392587371610180,
  127829777037140160,
  127829777037140160,
  164412590477549760,
  164412590477549760,
  127829777003593920,
  127829777003593920,
  164412590444003520,
  164412590444003520,
  127829776970039490,
  127829777003577540,
  164412590410449090,
  164412590443987140,
  127829774889656640,
  127829772743221440,
  164412588330066240,
  164412586183631040,
  127829774856110400,
  127829772709675200,
  164412588296520000,
  164412586150084800,
  127829774822555970,
  127829772709658820,
  164412588262965570,
  164412586150068420,
  127829772743221440,
  127829774889656640,
  128392585257689280,
  128392587404124480,
  127829772709675200,
  127829774856110400,
  128392585224143040,
  128392587370578240,
  127829772676120770,
  127829774856094020,
  128392585190588610,
  128392587370561860,
  127829772742697280,
  127829772742697280,
  128392585257165120,
  128392585257165120,
  127829772709151040,
  127829772709151040,
  128392585223618880,
  128392585223618880,
  127829772675596610,
  127829772709134660,
  128392585190064450,
  128392585223602500,
  31204079050816,
  31204079050816,
  31204045504576,
  31204045504576,
  31204011950146,
  31204045488196,
  31201932091456,
  31201932091456,
  31201898545216,
  31201898545216,
  31201864990786,
  31201898528836,
  31204078526656,
  31204078526656,
  31204044980416,
  31204044980416,
  31204011425986,
  31204044964036,
  31201931043136,
  31199784607936,
  31201897496896,
  31199751061696,
  31201863942466,
  31199751045316,
  31199784607936,
  31201931043136,
  31199751061696,
  31201897496896,
  31199717507266,
  31201897480516,
  31199784083776,
  31199784083776,
  31199750537536,
  31199750537536,
  31199716983106,
  31199750521156,
  126140789738446912,
  126140789738446912,
  162160790664388672,
  162160790664388672,
  126140789704900672,
  126140789704900672,
  162160790630842432,
  162160790630842432,
  126140789671346242,
  126140789704884292,
  162160790597288002,
  162160790630826052,
  126140787591487552,
  126140787591487552,
  162160788517429312,
  162160788517429312,
  126140787557941312,
  126140787557941312,
  162160788483883072,
  162160788483883072,
  126140787524386882,
  126140787557924932,
  162160788450328642,
  162160788483866692,
  126140789737922752,
  126140789737922752,
  126140789737922752,
  126140789737922752,
  126140789704376512,
  126140789704376512,
  126140789704376512,
  126140789704376512,
  126140789670822082,
  126140789704360132,
  126140789670822082,
  126140789704360132,
  126140787590439232,
  126140785444004032,
  126140787590439232,
  126140785444004032,
  126140787556892992,
  126140785410457792,
  126140787556892992,
  126140785410457792,
  126140787523338562,
  126140785410441412,
  126140787523338562,
  126140785410441412,
  126140785444004032,
  126140787590439232,
  162160786369945792,
  162160788516380992,
  126140785410457792,
  126140787556892992,
  162160786336399552,
  162160788482834752,
  126140785376903362,
  126140787556876612,
  162160786302845122,
  162160788482818372,
  126140785443479872,
  126140785443479872,
  126140785443479872,
  126140785443479872,
  126140785409933632,
  126140785409933632,
  126140785409933632,
  126140785409933632,
  126140785376379202,
  126140785409917252,
  126140785376379202,
  126140785409917252,
  164412590478073920,
  164412590478073920,
  164412588331114560,
  164412588331114560,
  163849777963081920,
  163849777963081920,
  163849775815598400,
  163849773669163200,
  164412586183631040,
  164412588330066240,
  163849773668639040,
  163849773668639040,
  162160790664388672,
  162160790664388672,
  162160788517429312,
  162160788517429312,
  162160790663864512,
  162160790663864512,
  162160788516380992,
  162160786369945792,
  162160786369945792,
  162160788516380992,
  162160786369421632,
  162160786369421632,
  164412590478073920,
  164412590478073920,
  164412590444527680,
  164412590444527680,
  128392589552123970,
  128392589552123970,
  128392589518569540,
  128392589485031490,
  164412590410973250,
  164412590444511300,
  128392589485023300,
  128392589485023300,
  164412590477549760,
  164412590477549760,
  164412590444003520,
  164412590444003520,
  128392589551599810,
  128392589551599810,
  128392589518045380,
  128392589484507330,
  164412590410449090,
  164412590443987140,
  128392589484499140,
  128392589484499140,
  164412588330066240,
  164412586183631040,
  164412588296520000,
  164412586150084800,
  128392587404116290,
  128392585257681090,
  128392587370561860,
  128392585190588610,
  164412588262965570,
  164412586150068420,
  128392587337015620,
  128392585190580420,
  2283003892736064,
  2283003892736064,
  2283003859189824,
  2283003859189824,
  2283003892727874,
  2283003892727874,
  2283003859173444,
  2283003825635394,
  2283003825635394,
  2283003859173444,
  2283003825627204,
  2283003825627204,
  2283003892211904,
  2283003892211904,
  2283003858665664,
  2283003858665664,
  2283003892203714,
  2283003892203714,
  2283003858649284,
  2283003825111234,
  2283003825111234,
  2283003858649284,
  2283003825103044,
  2283003825103044,
  2283001744728384,
  2282999598293184,
  2283001711182144,
  2282999564746944,
  2283001744720194,
  2282999598284994,
  2283001711165764,
  2282999531192514,
  2283001677627714,
  2282999564730564,
  2283001677619524,
  2282999531184324,
  127829777037664320,
  127829777037664320,
  164412590478073920,
  164412590478073920,
  127829777037656130,
  127829777037656130,
  164412590478065730,
  164412590478065730,
  127829777004101700,
  127829776970563650,
  164412590444511300,
  164412590410973250,
  127829777037140160,
  127829777037140160,
  164412590477549760,
  164412590477549760,
  127829777037131970,
  127829777037131970,
  164412590477541570,
  164412590477541570,
  127829777003577540,
  127829776970039490,
  164412590443987140,
  164412590410449090,
  127829774889656640,
  127829772743221440,
  164412588330066240,
  164412586183631040,
  127829774889648450,
  127829772743213250,
  164412588330058050,
  164412586183622850,
  127829774856094020,
  127829772676120770,
  164412588296503620,
  164412586116530370,
  164412590478073920,
  164412590478073920,
  164412590478065730,
  164412590478065730,
  164412590444511300,
  164412590410973250,
  164412590477549760,
  164412590477549760,
  164412590477541570,
  164412590477541570,
  164412590443987140,
  164412590410449090,
  164412588330066240,
  164412586183631040,
  164412588330058050,
  164412586183622850,
  164412588296503620,
  164412586116530370,
  2252217567158336,
  2252217567158336,
  2252217567150146,
  2252217567150146,
  2252217533595716,
  2252217500057666,
  2252217566634176,
  2252217566634176,
  2252217566625986,
  2252217566625986,
  2252217533071556,
  2252217499533506,
  2252215419150656,
  2252213272715456,
  2252215419142466,
  2252213272707266,
  2252215385588036,
  2252213205614786,
  162160378347528256,
  162160378347528256,
  162160378347520066,
  162160378347520066,
  162160378313965636,
  162160378280427586,
  162160378347004096,
  162160378347004096,
  162160378346995906,
  162160378346995906,
  162160378313441476,
  162160378279903426,
  162160376199520576,
  162160374053085376,
  162160376199512386,
  162160374053077186,
  162160376165957956,
  162160373985984706,
  164412590478073920,
  164412590478073920,
  164412590478073920,
  164412590478073920,
  127829777037664320,
  127829777037664320,
  164412590478073920,
  164412590478073920,
  164412590478065730,
  164412590478065730,
  164412590478065730,
  164412590478065730,
  127829777037656130,
  127829777037656130,
  164412590478065730,
  164412590478065730,
  164412590444511300,
  164412590410973250,
  164412590444511300,
  164412590410973250,
  127829777004101700,
  127829776970563650,
  164412590444511300,
  164412590410973250,
  164412590477549760,
  164412590477549760,
  164412590477549760,
  164412590477549760,
  127829777037140160,
  127829777037140160,
  164412590477549760,
  164412590477549760]
def ccsdt_t3_bbbbbb_cert_2 : List Nat := [164412590477541570,
  164412590477541570,
  164412590477541570,
  164412590477541570,
  127829777037131970,
  127829777037131970,
  164412590477541570,
  164412590477541570,
  164412590443987140,
  164412590410449090,
  164412590443987140,
  164412590410449090,
  127829777003577540,
  127829776970039490,
  164412590443987140,
  164412590410449090,
  164412588330066240,
  164412586183631040,
  164412588330066240,
  164412586183631040,
  127829774889656640,
  127829772743221440,
  164412588330066240,
  164412586183631040,
  164412588330058050,
  164412586183622850,
  164412588330058050,
  164412586183622850,
  127829774889648450,
  127829772743213250,
  164412588330058050,
  164412586183622850,
  164412588296503620,
  164412586116530370,
  164412588296503620,
  164412586116530370,
  127829774856094020,
  127829772676120770,
  164412588296503620,
  164412586116530370,
  1720191378268224,
  1720191378268224,
  2283003892736064,
  2283003892736064,
  1720191344721984,
  1720191344721984,
  2283003859189824,
  2283003859189824,
  1720191311167554,
  1720191344705604,
  2283003825635394,
  2283003859173444,
  1720191377744064,
  1720191377744064,
  2283003892211904,
  2283003892211904,
  1720191344197824,
  1720191344197824,
  2283003858665664,
  2283003858665664,
  1720191310643394,
  1720191344181444,
  2283003825111234,
  2283003858649284,
  1720189230260544,
  1720187083825344,
  2283001744728384,
  2282999598293184,
  1720189196714304,
  1720187050279104,
  2283001711182144,
  2282999564746944,
  1720189163159874,
  1720187050262724,
  2283001677627714,
  2282999564730564,
  128392589552132160,
  128392589552132160,
  127829777037664320,
  127829777037664320,
  164412590478073920,
  164412590478073920,
  128392589518585920,
  128392589518585920,
  127829777004118080,
  127829777004118080,
  164412590444527680,
  164412590444527680,
  128392589485031490,
  128392589518569540,
  127829776970563650,
  127829777004101700,
  164412590410973250,
  164412590444511300,
  128392589551608000,
  128392589551608000,
  127829777037140160,
  127829777037140160,
  164412590477549760,
  164412590477549760,
  128392589518061760,
  128392589518061760,
  127829777003593920,
  127829777003593920,
  164412590444003520,
  164412590444003520,
  128392589484507330,
  128392589518045380,
  127829776970039490,
  127829777003577540,
  164412590410449090,
  164412590443987140,
  128392587404124480,
  128392585257689280,
  127829774889656640,
  127829772743221440,
  164412588330066240,
  164412586183631040,
  128392587370578240,
  128392585224143040,
  127829774856110400,
  127829772709675200,
  164412588296520000,
  164412586150084800,
  128392587337023810,
  128392585224126660,
  127829774822555970,
  127829772709658820,
  164412588262965570,
  164412586150068420,
  30791762190400,
  30791762190400,
  30791728644160,
  30791728644160,
  30791695089730,
  30791728627780,
  30791761666240,
  30791761666240,
  30791728120000,
  30791728120000,
  30791694565570,
  30791728103620,
  30789614182720,
  30787467747520,
  30789580636480,
  30787434201280,
  30789547082050,
  30787434184900,
  162160790664388672,
  162160790664388672,
  162160790630842432,
  162160790630842432,
  126140789738438722,
  126140789738438722,
  126140789704884292,
  126140789671346242,
  162160790597288002,
  162160790630826052,
  126140789671338052,
  126140789671338052,
  162160788517429312,
  162160788517429312,
  162160788483883072,
  162160788483883072,
  126140787591479362,
  126140787591479362,
  126140787557924932,
  126140787524386882,
  162160788450328642,
  162160788483866692,
  126140787524378692,
  126140787524378692,
  162160786369945792,
  162160788516380992,
  162160786336399552,
  162160788482834752,
  126140785443995842,
  126140787590431042,
  126140785410441412,
  126140787523338562,
  162160786302845122,
  162160788482818372,
  126140785376895172,
  126140787523330372,
  127829777037664320,
  127829777037664320,
  163849777963606080,
  163849777963606080,
  127829777004118080,
  127829777004118080,
  163849777930059840,
  163849777930059840,
  127829777037656130,
  127829777037656130,
  163849777963597890,
  163849777963597890,
  127829777004101700,
  127829776970563650,
  163849777930043460,
  163849777896505410,
  127829776970563650,
  127829777004101700,
  163849777896505410,
  163849777930043460,
  127829776970555460,
  127829776970555460,
  163849777896497220,
  163849777896497220,
  127829774890704960,
  127829774890704960,
  163849775816646720,
  163849775816646720,
  127829774857158720,
  127829774857158720,
  163849775783100480,
  163849775783100480,
  127829774890696770,
  127829774890696770,
  163849775816638530,
  163849775816638530,
  127829774857142340,
  127829774823604290,
  163849775783084100,
  163849775749546050,
  127829774823604290,
  127829774857142340,
  163849775749546050,
  163849775783084100,
  127829774823596100,
  127829774823596100,
  163849775749537860,
  163849775749537860,
  127829772743221440,
  127829774889656640,
  163849773669163200,
  163849775815598400,
  127829772709675200,
  127829774856110400,
  163849773635616960,
  163849775782052160,
  127829772743213250,
  127829774889648450,
  163849773669155010,
  163849775815590210,
  127829772709658820,
  127829774822555970,
  163849773635600580,
  163849775748497730,
  127829772676120770,
  127829774856094020,
  163849773602062530,
  163849775782035780,
  127829772676112580,
  127829774822547780,
  163849773602054340,
  163849775748489540,
  31204079050816,
  31204079050816,
  31204045504576,
  31204045504576,
  31204079042626,
  31204079042626,
  31204045488196,
  31204011950146,
  31204011950146,
  31204045488196,
  31204011941956,
  31204011941956,
  31201932091456,
  31201932091456,
  31201898545216,
  31201898545216,
  31201932083266,
  31201932083266,
  31201898528836,
  31201864990786,
  31201864990786,
  31201898528836,
  31201864982596,
  31201864982596,
  31199784607936,
  31201931043136,
  31199751061696,
  31201897496896,
  31199784599746,
  31201931034946,
  31199751045316,
  31201863942466,
  31199717507266,
  31201897480516,
  31199717499076,
  31201863934276,
  1720191378268224,
  1720191378268224,
  1720191378268224,
  1720191378268224,
  1720191344721984,
  1720191344721984,
  1720191344721984,
  1720191344721984,
  1720191378260034,
  1720191378260034,
  1720191378260034,
  1720191378260034,
  1720191344705604,
  1720191311167554,
  1720191344705604,
  1720191311167554,
  1720191311167554,
  1720191344705604,
  1720191311167554,
  1720191344705604,
  1720191311159364,
  1720191311159364,
  1720191311159364,
  1720191311159364,
  1720189231308864,
  1720189231308864,
  1720189231308864,
  1720189231308864,
  1720189197762624,
  1720189197762624,
  1720189197762624,
  1720189197762624,
  1720189231300674,
  1720189231300674,
  1720189231300674,
  1720189231300674,
  1720189197746244,
  1720189164208194,
  1720189197746244,
  1720189164208194,
  1720189164208194,
  1720189197746244,
  1720189164208194,
  1720189197746244,
  1720189164200004,
  1720189164200004,
  1720189164200004,
  1720189164200004,
  1720187083825344,
  1720189230260544,
  1720187083825344,
  1720189230260544,
  1720187050279104,
  1720189196714304,
  1720187050279104,
  1720189196714304,
  1720187083817154,
  1720189230252354,
  1720187083817154,
  1720189230252354,
  1720187050262724,
  1720189163159874,
  1720187050262724,
  1720189163159874,
  1720187016724674,
  1720189196697924,
  1720187016724674,
  1720189196697924,
  1720187016716484,
  1720189163151684,
  1720187016716484,
  1720189163151684,
  164412590478073920,
  164412590478073920,
  164412590444527680,
  164412590444527680,
  128392589552123970,
  128392589552123970,
  128392589518569540,
  128392589485031490,
  164412590410973250,
  164412590444511300,
  128392589485023300,
  128392589485023300,
  2283003892736064,
  2283003892736064,
  2283003859189824,
  2283003859189824,
  2283003892727874,
  2283003892727874,
  2283003859173444,
  2283003825635394,
  2283003825635394,
  2283003859173444,
  2283003825627204,
  2283003825627204,
  2283003892736064,
  2283003892736064,
  2283003892736064,
  2283003892736064,
  2283003859189824,
  2283003859189824,
  2283003859189824,
  2283003859189824,
  2283003825635394,
  2283003859173444,
  2283003825635394,
  2283003859173444]
def ccsdt_t3_bbbbbb_cert_3 : List Nat := [164412590478073920,
  164412590478073920,
  164412590444527680,
  164412590444527680,
  164412590410973250,
  164412590444511300,
  162160790664388672,
  162160790664388672,
  162160790664388672,
  162160790664388672,
  162160788517429312,
  162160788517429312,
  162160788517429312,
  162160788517429312,
  162160786369945792,
  162160788516380992,
  162160786369945792,
  162160788516380992,
  164412590478073920,
  164412590478073920,
  164412588331114560,
  164412588331114560,
  164412586183631040,
  164412588330066240,
  2283003892736064,
  2283003892736064,
  2283003859189824,
  2283003859189824,
  2283003825635394,
  2283003859173444,
  2283001745776704,
  2283001745776704,
  2283001712230464,
  2283001712230464,
  2283001678676034,
  2283001712214084,
  2282999598293184,
  2283001744728384,
  2282999564746944,
  2283001711182144,
  2282999531192514,
  2283001711165764,
  31204079050816,
  31204079050816,
  31204079050816,
  31204079050816,
  31204045504576,
  31204045504576,
  31204045504576,
  31204045504576,
  31204011950146,
  31204045488196,
  31204011950146,
  31204045488196,
  31201932091456,
  31201932091456,
  31201932091456,
  31201932091456,
  31201898545216,
  31201898545216,
  31201898545216,
  31201898545216,
  31201864990786,
  31201898528836,
  31201864990786,
  31201898528836,
  31199784607936,
  31201931043136,
  31199784607936,
  31201931043136,
  31199751061696,
  31201897496896,
  31199751061696,
  31201897496896,
  31199717507266,
  31201897480516,
  31199717507266,
  31201897480516,
  417753473088,
  417753473088,
  417719926848,
  417719926848,
  417753473088,
  417753473088,
  30791762190400,
  30791762190400,
  30791761666240,
  30791761666240,
  30791762190400,
  30791762190400,
  31204079050816,
  31204079050816,
  31204045504576,
  31204045504576,
  31204079050816,
  31204079050816,
  31204079050816,
  31204079050816,
  31204078526656,
  31204078526656,
  31204079050816,
  31204079050816,
  31204079050816,
  31204079050816,
  31204079042626,
  31204079042626,
  31204078526656,
  31204078526656,
  31204078518466,
  31204078518466,
  31204079050816,
  31204079050816,
  31204078526656,
  31204078526656,
  31204079050816,
  31204079050816,
  31204079042626,
  31204079042626,
  31204079050816,
  31204079050816,
  417753473088,
  417753473088,
  417753464898,
  417753464898,
  417752948928,
  417752948928,
  417752940738,
  417752940738,
  417753473088,
  417753473088,
  417752948928,
  417752948928,
  417753473088,
  417753473088,
  417753464898,
  417753464898,
  417753473088,
  417753473088,
  30791762190400,
  30791762190400,
  30791728644160,
  30791728644160,
  30789615231040,
  30789615231040,
  30789581684800,
  30789581684800,
  30791762190400,
  30791762190400,
  30789615231040,
  30789615231040,
  30791762190400,
  30791762190400,
  30791728644160,
  30791728644160,
  30791762190400,
  30791762190400,
  1689405052690496,
  1689405052690496,
  1689405052682306,
  1689405052682306,
  1689405052690496,
  1689405052690496,
  31204079050816,
  31204079050816,
  31204045504576,
  31204045504576,
  31204078526656,
  31204078526656,
  31204044980416,
  31204044980416,
  31204079050816,
  31204079050816,
  31204045504576,
  31204045504576,
  31204078526656,
  31204078526656,
  31204044980416,
  31204044980416,
  31204079050816,
  31204079050816,
  31204078526656,
  31204078526656,
  31204079050816,
  31204079050816,
  31204078526656,
  31204078526656,
  31204079050816,
  31204079050816,
  31204045504576,
  31204045504576,
  31204079050816,
  31204079050816,
  31204045504576,
  31204045504576,
  31204079050816,
  31204079050816,
  31204079050816,
  31204079050816,
  162160378347528256,
  162160378347528256,
  162160376200568896,
  162160376200568896,
  162160378347528256,
  162160378347528256,
  2252217567158336,
  2252217567158336,
  2252217567150146,
  2252217567150146,
  2252217566634176,
  2252217566634176,
  2252217566625986,
  2252217566625986,
  2252217567158336,
  2252217567158336,
  2252217567150146,
  2252217567150146,
  2252217567158336,
  2252217567158336,
  2252217566634176,
  2252217566634176,
  2252217567158336,
  2252217567158336,
  31204079050816,
  31204079050816,
  31204079042626,
  31204079042626,
  31204078526656,
  31204078526656,
  31204078518466,
  31204078518466,
  31204079050816,
  31204079050816,
  31204045504576,
  31204045504576,
  31201932091456,
  31201932091456,
  31201898545216,
  31201898545216,
  31204079050816,
  31204079050816,
  31204011941956,
  31204011941956,
  31204078526656,
  31204078526656,
  31204011417796,
  31204011417796,
  31204079050816,
  31204079050816,
  31204045504576,
  31204045504576,
  31204078526656,
  31204078526656,
  31204044980416,
  31204044980416,
  31204079050816,
  31204079050816,
  31201932091456,
  31201932091456,
  31204079050816,
  31204079050816,
  31204045504576,
  31204045504576,
  31199784083776,
  31199784083776,
  31199750537536,
  31199750537536,
  31204079050816,
  31204079050816,
  31199784083776,
  31199784083776,
  31204079050816,
  31204079050816,
  31204079042626,
  31204079042626,
  31204079050816,
  31204079050816,
  31204045504576,
  31204045504576,
  31204078526656,
  31204078526656,
  31204044980416,
  31204044980416,
  31204079050816,
  31204079050816,
  31204011941956,
  31204011941956,
  31204079050816,
  31204079050816,
  31204045504576,
  31204045504576,
  31204079050816,
  31204079050816,
  31204078526656,
  31204078526656,
  162160378347528256,
  162160378347528256,
  162160378313982016,
  162160378313982016,
  162160376200568896,
  162160376200568896,
  162160376167022656,
  162160376167022656,
  162160378347528256,
  162160378347528256,
  162160376200568896,
  162160376200568896,
  162160378347528256,
  162160378347528256,
  162160378313982016,
  162160378313982016,
  162160378347528256,
  162160378347528256,
  2283003892736064,
  2283003892736064,
  2283003859189824,
  2283003859189824,
  2283003892736064,
  2283003892736064,
  2283003859189824,
  2283003859189824,
  1720191378268224,
  1720191378268224,
  1720191378260034,
  1720191378260034,
  1720191378268224,
  1720191378268224,
  1720191344721984,
  1720191344721984,
  1720191377744064,
  1720191377744064,
  1720191344197824,
  1720191344197824,
  2283003892736064,
  2283003892736064,
  2283003859189824,
  2283003859189824,
  2283003892211904,
  2283003892211904,
  2283003858665664,
  2283003858665664,
  1720191378268224,
  1720191378268224,
  1720191344721984,
  1720191344721984,
  2283003892736064,
  2283003892736064,
  2283003859189824,
  2283003859189824,
  1720191378268224,
  1720191378268224,
  1720191311159364,
  1720191311159364,
  2283003892736064,
  2283003892736064,
  2283003892736064,
  2283003892736064,
  1720191378268224,
  1720191378268224,
  1720191344721984,
  1720191344721984,
  1720191378268224,
  1720191378268224,
  1720191377744064,
  1720191377744064,
  2283003892736064,
  2283003892736064,
  2283003892211904,
  2283003892211904,
  1720191378268224,
  1720191378268224,
  2283003892736064,
  2283003892736064,
  162160790664388672,
  162160790664388672,
  162160790663864512,
  162160790663864512,
  162160790664388672,
  162160790664388672,
  162160790663864512,
  162160790663864512,
  126140789738446912,
  126140789738446912,
  126140789704900672,
  126140789704900672,
  126140789737922752,
  126140789737922752,
  126140789704376512,
  126140789704376512,
  162160790664388672,
  162160790664388672,
  162160790630842432,
  162160790630842432,
  162160790663864512,
  162160790663864512,
  162160790630318272,
  162160790630318272,
  126140789738446912,
  126140789738446912,
  126140789737922752,
  126140789737922752]
def ccsdt_t3_bbbbbb_cert_4 : List Nat := [162160790664388672,
  162160790664388672,
  162160790663864512,
  162160790663864512,
  162160790664388672,
  162160790664388672,
  162160788517429312,
  162160788517429312,
  162160790664388672,
  162160790664388672,
  162160786369421632,
  162160786369421632,
  162160790664388672,
  162160790664388672,
  162160790664388672,
  162160790664388672,
  126140789738446912,
  126140789738446912,
  126140789704900672,
  126140789704900672,
  162160790664388672,
  162160790664388672,
  162160790630842432,
  162160790630842432,
  126140789738446912,
  126140789738446912,
  162160790664388672,
  162160790664388672,
  162160790664388672,
  162160790664388672,
  162160790663864512,
  162160790663864512,
  164412590478073920,
  164412590478073920,
  164412590444527680,
  164412590444527680,
  128392589552132160,
  128392589552132160,
  128392589518585920,
  128392589518585920,
  164412590478073920,
  164412590478073920,
  164412590444527680,
  164412590444527680,
  164412590478073920,
  164412590478073920,
  128392589552132160,
  128392589552132160,
  164412590478073920,
  164412590478073920,
  163849777963606080,
  163849777963606080,
  163849777963597890,
  163849777963597890,
  163849777963606080,
  163849777963606080,
  163849777963606080,
  163849777963606080,
  163849777963081920,
  163849777963081920,
  164412590478073920,
  164412590478073920,
  164412590477549760,
  164412590477549760,
  163849777963606080,
  163849777963606080,
  163849777963081920,
  163849777963081920,
  164412590478073920,
  164412590478073920,
  164412590444527680,
  164412590444527680,
  164412590477549760,
  164412590477549760,
  164412590444003520,
  164412590444003520,
  164412590478073920,
  164412590478073920,
  164412590444527680,
  164412590444527680,
  164412590477549760,
  164412590477549760,
  164412590444003520,
  164412590444003520,
  127829777037664320,
  127829777037664320,
  127829777004118080,
  127829777004118080,
  127829777037140160,
  127829777037140160,
  127829777003593920,
  127829777003593920,
  164412590478073920,
  164412590478073920,
  164412590444527680,
  164412590444527680,
  164412590477549760,
  164412590477549760,
  164412590444003520,
  164412590444003520,
  164412590478073920,
  164412590478073920,
  164412590477549760,
  164412590477549760,
  164412590478073920,
  164412590478073920,
  164412590477549760,
  164412590477549760,
  127829777037664320,
  127829777037664320,
  127829777037140160,
  127829777037140160,
  164412590478073920,
  164412590478073920,
  164412590477549760,
  164412590477549760,
  127829777037664320,
  127829777037664320,
  127829777037656130,
  127829777037656130,
  127829777037140160,
  127829777037140160,
  127829777037131970,
  127829777037131970,
  128392589552132160,
  128392589552132160,
  128392589552123970,
  128392589552123970,
  128392589551608000,
  128392589551608000,
  128392589551599810,
  128392589551599810,
  163849777963606080,
  163849777963606080,
  163849777963597890,
  163849777963597890,
  163849777963081920,
  163849777963081920,
  163849777963073730,
  163849777963073730,
  127829777037664320,
  127829777037664320,
  127829777037140160,
  127829777037140160,
  128392589552132160,
  128392589552132160,
  128392589551608000,
  128392589551608000,
  163849777963606080,
  163849777963606080,
  163849777963081920,
  163849777963081920,
  163849777963606080,
  163849777963606080,
  164412590478073920,
  164412590478073920,
  163849777963606080,
  163849777963606080,
  164412590478073920,
  164412590478073920,
  164412590444527680,
  164412590444527680,
  164412590478073920,
  164412590478073920,
  164412590444527680,
  164412590444527680,
  127829777037664320,
  127829777037664320,
  127829777004118080,
  127829777004118080,
  164412590478073920,
  164412590478073920,
  164412590444527680,
  164412590444527680,
  164412590478073920,
  164412590478073920,
  164412590478073920,
  164412590478073920,
  127829777037664320,
  127829777037664320,
  164412590478073920,
  164412590478073920,
  127829777037664320,
  127829777037664320,
  127829777037656130,
  127829777037656130,
  128392589552132160,
  128392589552132160,
  128392589552123970,
  128392589552123970,
  163849777963606080,
  163849777963606080,
  163849777963597890,
  163849777963597890,
  127829777037664320,
  127829777037664320,
  128392589552132160,
  128392589552132160,
  163849777963606080,
  163849777963606080,
  163849777963606080,
  163849777963606080,
  163849775816646720,
  163849775816646720,
  163849777963606080,
  163849777963606080,
  163849777930059840,
  163849777930059840,
  163849775816646720,
  163849775816646720,
  163849775783100480,
  163849775783100480,
  127829777037664320,
  127829777037664320,
  127829777004118080,
  127829777004118080,
  127829774890704960,
  127829774890704960,
  127829774857158720,
  127829774857158720,
  164412590478073920,
  164412590478073920,
  164412590444527680,
  164412590444527680,
  164412588331114560,
  164412588331114560,
  164412588297568320,
  164412588297568320,
  163849777963606080,
  163849777963606080,
  163849775816646720,
  163849775816646720,
  127829777037664320,
  127829777037664320,
  127829774890704960,
  127829774890704960,
  164412590478073920,
  164412590478073920,
  164412588331114560,
  164412588331114560,
  163849777963606080,
  163849777963606080,
  163849777963606080,
  163849777963606080,
  163849777930059840,
  163849777930059840,
  127829777037664320,
  127829777037664320,
  127829777004118080,
  127829777004118080,
  164412590478073920,
  164412590478073920,
  164412590444527680,
  164412590444527680,
  163849777963606080,
  163849777963606080,
  127829777037664320,
  127829777037664320,
  164412590478073920,
  164412590478073920,
  2283003892736064,
  2283003892736064,
  2283003892727874,
  2283003892727874,
  2283003892211904,
  2283003892211904,
  2283003892203714,
  2283003892203714,
  2283003892736064,
  2283003892736064,
  2283003892727874,
  2283003892727874,
  2283003892211904,
  2283003892211904,
  2283003892203714,
  2283003892203714,
  1720191378268224,
  1720191378268224,
  1720191344721984,
  1720191344721984,
  1720191377744064,
  1720191377744064,
  1720191344197824,
  1720191344197824,
  2283003892736064,
  2283003892736064,
  2283003892727874,
  2283003892727874,
  2283003892736064,
  2283003892736064,
  2283003892727874,
  2283003892727874,
  1720191378268224,
  1720191378268224,
  1720191344721984,
  1720191344721984,
  2283003892736064,
  2283003892736064,
  2283003825627204,
  2283003825627204,
  2283003892211904,
  2283003892211904,
  2283003825103044,
  2283003825103044,
  2283003892736064,
  2283003892736064,
  2283003825627204,
  2283003825627204,
  2283003892211904,
  2283003892211904,
  2283003825103044,
  2283003825103044,
  2283003892736064,
  2283003892736064,
  2283003825627204,
  2283003825627204,
  2283003892736064,
  2283003892736064,
  2283003825627204,
  2283003825627204,
  2283003892736064,
  2283003892736064,
  2283003859189824,
  2283003859189824,
  2283003892211904,
  2283003892211904,
  2283003858665664,
  2283003858665664,
  2283003892736064,
  2283003892736064,
  2283003859189824,
  2283003859189824,
  2283003892211904,
  2283003892211904,
  2283003858665664,
  2283003858665664,
  1720191378268224,
  1720191378268224,
  1720191377744064,
  1720191377744064,
  2283003892736064,
  2283003892736064,
  2283003859189824,
  2283003859189824,
  2283003892736064,
  2283003892736064,
  2283003859189824,
  2283003859189824,
  1720191378268224,
  1720191378268224,
  162160790664388672,
  162160790664388672,
  162160790664380482,
  162160790664380482,
  162160790663864512,
  162160790663864512,
  162160790663856322,
  162160790663856322,
  162160790664388672,
  162160790664388672,
  162160790663864512,
  162160790663864512,
  162160790664388672,
  162160790664388672,
  162160790630842432,
  162160790630842432,
  162160790663864512,
  162160790663864512,
  162160790630318272,
  162160790630318272,
  162160790664388672,
  162160790664388672,
  162160790630842432,
  162160790630842432,
  162160790663864512,
  162160790663864512,
  162160790630318272,
  162160790630318272,
  162160790664388672,
  162160790664388672,
  162160790663864512,
  162160790663864512,
  162160790664388672,
  162160790664388672,
  162160790663864512,
  162160790663864512,
  126140789738446912,
  126140789738446912,
  126140789738438722,
  126140789738438722,
  126140789737922752,
  126140789737922752,
  126140789737914562,
  126140789737914562,
  162160790664388672,
  162160790664388672,
  162160790664380482,
  162160790664380482,
  162160790663864512,
  162160790663864512]
def ccsdt_t3_bbbbbb_cert_5 : List Nat := [162160790663856322,
  162160790663856322,
  126140789738446912,
  126140789738446912,
  126140789737922752,
  126140789737922752,
  162160790664388672,
  162160790664388672,
  162160790663864512,
  162160790663864512,
  162160790664388672,
  162160790664388672,
  162160790664380482,
  162160790664380482,
  162160790664388672,
  162160790664388672,
  162160790664388672,
  162160790664388672,
  162160790630842432,
  162160790630842432,
  162160790664388672,
  162160790664388672,
  162160790630842432,
  162160790630842432,
  162160790664388672,
  162160790664388672,
  162160790664388672,
  162160790664388672,
  126140789738446912,
  126140789738446912,
  126140789738438722,
  126140789738438722,
  162160790664388672,
  162160790664388672,
  162160790664380482,
  162160790664380482,
  126140789738446912,
  126140789738446912,
  162160790664388672,
  162160790664388672,
  164412590478073920,
  164412590478073920,
  164412590478065730,
  164412590478065730,
  164412590477549760,
  164412590477549760,
  164412590477541570,
  164412590477541570,
  164412590478073920,
  164412590478073920,
  164412590478065730,
  164412590478065730,
  164412590477549760,
  164412590477549760,
  164412590477541570,
  164412590477541570,
  164412590478073920,
  164412590478073920,
  164412590477549760,
  164412590477549760,
  164412590478073920,
  164412590478073920,
  164412590477549760,
  164412590477549760,
  164412590478073920,
  164412590478073920,
  164412590478065730,
  164412590478065730,
  164412590478073920,
  164412590478073920,
  164412590478065730,
  164412590478065730,
  164412590478073920,
  164412590478073920,
  164412590478073920,
  164412590478073920,
  128392589552132160,
  128392589552132160,
  128392589552123970,
  128392589552123970,
  128392589551608000,
  128392589551608000,
  128392589551599810,
  128392589551599810,
  164412590478073920,
  164412590478073920,
  164412590478065730,
  164412590478065730,
  164412590477549760,
  164412590477549760,
  164412590477541570,
  164412590477541570,
  163849777963606080,
  163849777963606080,
  163849777930059840,
  163849777930059840,
  163849777963081920,
  163849777963081920,
  163849777929535680,
  163849777929535680,
  128392589552132160,
  128392589552132160,
  128392589552123970,
  128392589552123970,
  164412590478073920,
  164412590478073920,
  164412590478065730,
  164412590478065730,
  163849777963606080,
  163849777963606080,
  163849777930059840,
  163849777930059840,
  128392589552132160,
  128392589552132160,
  128392589485023300,
  128392589485023300,
  128392589551608000,
  128392589551608000,
  128392589484499140,
  128392589484499140,
  164412590478073920,
  164412590478073920,
  164412590410965060,
  164412590410965060,
  164412590477549760,
  164412590477549760,
  164412590410440900,
  164412590410440900,
  128392589552132160,
  128392589552132160,
  128392589485023300,
  128392589485023300,
  164412590478073920,
  164412590478073920,
  164412590410965060,
  164412590410965060,
  128392589552132160,
  128392589552132160,
  128392589518585920,
  128392589518585920,
  128392589551608000,
  128392589551608000,
  128392589518061760,
  128392589518061760,
  164412590478073920,
  164412590478073920,
  164412590444527680,
  164412590444527680,
  164412590477549760,
  164412590477549760,
  164412590444003520,
  164412590444003520,
  163849777963606080,
  163849777963606080,
  163849777963081920,
  163849777963081920,
  128392589552132160,
  128392589552132160,
  128392589518585920,
  128392589518585920,
  164412590478073920,
  164412590478073920,
  164412590444527680,
  164412590444527680,
  163849777963606080,
  163849777963606080,
  164412590478073920,
  164412590478073920,
  164412590478065730,
  164412590478065730,
  164412590477549760,
  164412590477549760,
  164412590477541570,
  164412590477541570,
  164412590478073920,
  164412590478073920,
  164412590477549760,
  164412590477549760,
  163849777963606080,
  163849777963606080,
  163849777930059840,
  163849777930059840,
  163849777963081920,
  163849777963081920,
  163849777929535680,
  163849777929535680,
  164412590478073920,
  164412590478073920,
  164412590444527680,
  164412590444527680,
  164412590477549760,
  164412590477549760,
  164412590444003520,
  164412590444003520,
  163849777963606080,
  163849777963606080,
  163849777963081920,
  163849777963081920,
  164412590478073920,
  164412590478073920,
  164412590477549760,
  164412590477549760,
  127829777037664320,
  127829777037664320,
  127829777037656130,
  127829777037656130,
  127829777037140160,
  127829777037140160,
  127829777037131970,
  127829777037131970,
  164412590478073920,
  164412590478073920,
  164412590478065730,
  164412590478065730,
  164412590477549760,
  164412590477549760,
  164412590477541570,
  164412590477541570,
  127829777037664320,
  127829777037664320,
  127829777037140160,
  127829777037140160,
  164412590478073920,
  164412590478073920,
  164412590477549760,
  164412590477549760,
  164412590478073920,
  164412590478073920,
  164412590478065730,
  164412590478065730,
  164412590478073920,
  164412590478073920,
  163849777963606080,
  163849777963606080,
  163849777930059840,
  163849777930059840,
  164412590478073920,
  164412590478073920,
  164412590444527680,
  164412590444527680,
  163849777963606080,
  163849777963606080,
  164412590478073920,
  164412590478073920,
  127829777037664320,
  127829777037664320,
  127829777037656130,
  127829777037656130,
  164412590478073920,
  164412590478073920,
  164412590478065730,
  164412590478065730,
  127829777037664320,
  127829777037664320,
  164412590478073920,
  164412590478073920,
  2283003892736064,
  2283003892736064,
  2283003892727874,
  2283003892727874,
  2283003892211904,
  2283003892211904,
  2283003892203714,
  2283003892203714,
  2283003892736064,
  2283003892736064,
  2283003892727874,
  2283003892727874,
  2283003892736064,
  2283003892736064,
  2283003859189824,
  2283003859189824,
  2283001745776704,
  2283001745776704,
  2283001712230464,
  2283001712230464,
  2283003892736064,
  2283003892736064,
  2283003859189824,
  2283003859189824,
  2283003892736064,
  2283003892736064,
  2283003825627204,
  2283003825627204,
  2283003892211904,
  2283003892211904,
  2283003825103044,
  2283003825103044,
  2283003892736064,
  2283003892736064,
  2283003825627204,
  2283003825627204,
  2283003892736064,
  2283003892736064,
  2283003859189824,
  2283003859189824,
  2283003892211904,
  2283003892211904,
  2283003858665664,
  2283003858665664,
  2283003892736064,
  2283003892736064,
  2283003859189824,
  2283003859189824,
  2283003892736064,
  2283003892736064,
  2283001745776704,
  2283001745776704,
  2283003892736064,
  2283003892736064,
  126140789738446912,
  126140789738446912,
  126140789738438722,
  126140789738438722,
  126140789737922752,
  126140789737922752,
  126140789737914562,
  126140789737914562,
  162160790664388672,
  162160790664388672,
  162160790630842432,
  162160790630842432,
  162160788517429312,
  162160788517429312,
  162160788483883072,
  162160788483883072,
  126140789738446912,
  126140789738446912,
  126140789737922752,
  126140789737922752,
  162160790664388672,
  162160790664388672,
  162160788517429312,
  162160788517429312,
  162160790664388672,
  162160790664388672,
  162160790630842432,
  162160790630842432,
  162160786369421632,
  162160786369421632,
  162160786335875392,
  162160786335875392,
  162160790664388672,
  162160790664388672,
  162160786369421632,
  162160786369421632,
  126140789738446912,
  126140789738446912,
  126140789738438722,
  126140789738438722,
  162160790664388672,
  162160790664388672,
  162160790630842432,
  162160790630842432,
  162160790663864512,
  162160790663864512,
  162160790630318272,
  162160790630318272,
  126140789738446912,
  126140789738446912,
  162160790664388672,
  162160790664388672,
  162160790663864512,
  162160790663864512,
  164412590478073920,
  164412590478073920,
  164412590444527680,
  164412590444527680,
  164412590478073920,
  164412590478073920,
  164412590444527680,
  164412590444527680,
  164412590478073920,
  164412590478073920,
  164412590478073920,
  164412590478073920,
  164412590478073920,
  164412590478073920,
  164412590477549760,
  164412590477549760,
  164412590478073920,
  164412590478073920,
  164412590477549760,
  164412590477549760,
  164412590478073920,
  164412590478073920,
  164412590478073920,
  164412590478073920,
  127829777037664320,
  127829777037664320,
  127829777037656130,
  127829777037656130,
  127829777037664320,
  127829777037664320,
  127829777004118080,
  127829777004118080,
  127829777037140160,
  127829777037140160,
  127829777003593920,
  127829777003593920]
def ccsdt_t3_bbbbbb_cert_6 : List Nat := [164412590478073920,
  164412590478073920,
  164412590444527680,
  164412590444527680,
  164412590477549760,
  164412590477549760,
  164412590444003520,
  164412590444003520,
  127829777037664320,
  127829777037664320,
  127829777004118080,
  127829777004118080,
  164412590478073920,
  164412590478073920,
  164412590444527680,
  164412590444527680,
  127829777037664320,
  127829777037664320,
  127829777037664320,
  127829777037664320,
  127829777037140160,
  127829777037140160,
  164412590478073920,
  164412590478073920,
  164412590477549760,
  164412590477549760,
  127829777037664320,
  127829777037664320,
  164412590478073920,
  164412590478073920,
  164412590478073920,
  164412590478073920,
  164412588331114560,
  164412588331114560,
  164412590478073920,
  164412590478073920,
  128392589552132160,
  128392589552132160,
  128392589552123970,
  128392589552123970,
  128392589551608000,
  128392589551608000,
  128392589551599810,
  128392589551599810,
  128392589552132160,
  128392589552132160,
  128392589552123970,
  128392589552123970,
  164412590478073920,
  164412590478073920,
  164412590444527680,
  164412590444527680,
  164412588331114560,
  164412588331114560,
  164412588297568320,
  164412588297568320,
  164412590478073920,
  164412590478073920,
  164412590444527680,
  164412590444527680,
  128392589552132160,
  128392589552132160,
  128392589551608000,
  128392589551608000,
  128392589552132160,
  128392589552132160,
  164412590478073920,
  164412590478073920,
  164412588331114560,
  164412588331114560,
  164412590478073920,
  164412590478073920]

/-- Check ccsdt_t3_bbbbbb. C83 -/
theorem ccsdt_t3_bbbbbb : isZeroSpin kinds [aᵥ, bᵥ, cᵥ, iₒ, jₒ, kₒ] 4 [true, true, true, true, true, true]
    (Prog.outs [3, 4, 5, 0, 1, 2] (Prog.thin split_ccsdt_t3 (Prog.ideal (ccsdt_t3eqns_0 ++ ccsdt_t3eqns_1))))
    (Prog.scale (-1) (Prog.ideal (ccsdt_t3_bbbbbb)))
    (ccsdt_t3_bbbbbb_cert_0 ++ (ccsdt_t3_bbbbbb_cert_1 ++ (ccsdt_t3_bbbbbb_cert_2 ++ (ccsdt_t3_bbbbbb_cert_3 ++ (ccsdt_t3_bbbbbb_cert_4 ++ (ccsdt_t3_bbbbbb_cert_5 ++ (ccsdt_t3_bbbbbb_cert_6))))))) = true := by decide +kernel

end Verif.Cert
