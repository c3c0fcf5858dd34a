import Verif.Ein.Ops2
import Verif.Wick.Box
import Verif.Gen.Triples

/-! Written by `/verif/tools/gen.py`. Checks of einsum programs. -/

set_option maxRecDepth 100000

namespace Verif.Cert

open Verif.Ein Verif.Ein.N


open Verif.Gen

def wicked_capA_cert_0 : List Nat := [162160790664388672,
  162160790664388672,
  162160788517429312,
  162160788517429312,
  126140789737922752,
  126140789737922752,
  126140787590439232,
  126140785444004032,
  162160786369945792,
  162160788516380992,
  126140785443479872,
  126140785443479872,
  162160790630842432,
  162160790630842432,
  162160788483883072,
  162160788483883072,
  126140789704376512,
  126140789704376512,
  126140787556892992,
  126140785410457792,
  162160786336399552,
  162160788482834752,
  126140785409933632,
  126140785409933632,
  162160790664380482,
  162160790664380482,
  162160788517421122,
  162160788517421122,
  126140789737914562,
  126140789737914562,
  126140787590431042,
  126140785443995842,
  162160786369937602,
  162160788516372802,
  126140785443471682,
  126140785443471682,
  162160790630826052,
  162160790597288002,
  162160788483866692,
  162160788450328642,
  126140789704360132,
  126140789670822082,
  126140787556876612,
  126140785376903362,
  162160786336383172,
  162160788449280322,
  126140785409917252,
  126140785376379202,
  162160790597288002,
  162160790630826052,
  162160788450328642,
  162160788483866692,
  126140789670822082,
  126140789704360132,
  126140787523338562,
  126140785410441412,
  162160786302845122,
  162160788482818372,
  126140785376379202,
  126140785409917252,
  162160790597279812,
  162160790597279812,
  162160788450320452,
  162160788450320452,
  126140789670813892,
  126140789670813892,
  126140787523330372,
  126140785376895172,
  162160786302836932,
  162160788449272132,
  126140785376371012,
  126140785376371012,
  2283003892736064,
  2283003892736064,
  2283001745776704,
  2283001745776704,
  2283003892211904,
  2283003892211904,
  2283001744728384,
  2282999598293184,
  2282999598293184,
  2283001744728384,
  2282999597769024,
  2282999597769024,
  2283003859189824,
  2283003859189824,
  2283001712230464,
  2283001712230464,
  2283003858665664,
  2283003858665664,
  2283001711182144,
  2282999564746944,
  2282999564746944,
  2283001711182144,
  2282999564222784,
  2282999564222784,
  2283003892727874,
  2283003892727874,
  2283001745768514,
  2283001745768514,
  2283003892203714,
  2283003892203714,
  2283001744720194,
  2282999598284994,
  2282999598284994,
  2283001744720194,
  2282999597760834,
  2282999597760834,
  2283003859173444,
  2283003825635394,
  2283001712214084,
  2283001678676034,
  2283003858649284,
  2283003825111234,
  2283001711165764,
  2282999531192514,
  2282999564730564,
  2283001677627714,
  2282999564206404,
  2282999530668354,
  2283003825635394,
  2283003859173444,
  2283001678676034,
  2283001712214084,
  2283003825111234,
  2283003858649284,
  2283001677627714,
  2282999564730564,
  2282999531192514,
  2283001711165764,
  2282999530668354,
  2282999564206404,
  2283003825627204,
  2283003825627204,
  2283001678667844,
  2283001678667844,
  2283003825103044,
  2283003825103044,
  2283001677619524,
  2282999531184324,
  2282999531184324,
  2283001677619524,
  2282999530660164,
  2282999530660164,
  162160790664388672,
  162160790664388672,
  162160788517429312,
  162160788517429312,
  162160790663864512,
  162160790663864512,
  162160788516380992,
  162160786369945792,
  162160786369945792,
  162160788516380992,
  162160786369421632,
  162160786369421632,
  162160790630842432,
  162160790630842432,
  162160788483883072,
  162160788483883072,
  162160790630318272,
  162160790630318272,
  162160788482834752,
  162160786336399552,
  162160786336399552,
  162160788482834752,
  162160786335875392,
  162160786335875392,
  162160790664380482,
  162160790664380482,
  162160788517421122,
  162160788517421122,
  162160790663856322,
  162160790663856322,
  162160788516372802,
  162160786369937602,
  162160786369937602,
  162160788516372802,
  162160786369413442,
  162160786369413442,
  162160790630826052,
  162160790597288002,
  162160788483866692,
  162160788450328642,
  162160790630301892,
  162160790596763842,
  162160788482818372,
  162160786302845122,
  162160786336383172,
  162160788449280322,
  162160786335859012,
  162160786302320962,
  162160790597288002,
  162160790630826052,
  162160788450328642,
  162160788483866692,
  162160790596763842,
  162160790630301892,
  162160788449280322,
  162160786336383172,
  162160786302845122,
  162160788482818372,
  162160786302320962,
  162160786335859012,
  162160790597279812,
  162160790597279812,
  162160788450320452,
  162160788450320452,
  162160790596755652,
  162160790596755652,
  162160788449272132,
  162160786302836932,
  162160786302836932,
  162160788449272132,
  162160786302312772,
  162160786302312772,
  1720191378268224,
  1720191378268224,
  1720189231308864,
  1720189231308864,
  1720191377744064,
  1720191377744064,
  1720189230260544,
  1720187083825344,
  1720187083825344,
  1720189230260544,
  1720187083301184,
  1720187083301184,
  1720191344721984,
  1720191344721984,
  1720189197762624,
  1720189197762624,
  1720191344197824,
  1720191344197824,
  1720189196714304,
  1720187050279104,
  1720187050279104,
  1720189196714304,
  1720187049754944,
  1720187049754944,
  1720191378260034,
  1720191378260034,
  1720189231300674,
  1720189231300674,
  1720191377735874,
  1720191377735874,
  1720189230252354,
  1720187083817154,
  1720187083817154,
  1720189230252354,
  1720187083292994,
  1720187083292994,
  1720191344705604,
  1720191311167554,
  1720189197746244,
  1720189164208194,
  1720191344181444,
  1720191310643394,
  1720189196697924,
  1720187016724674,
  1720187050262724,
  1720189163159874,
  1720187049738564,
  1720187016200514,
  1720191311167554,
  1720191344705604,
  1720189164208194,
  1720189197746244,
  1720191310643394,
  1720191344181444,
  1720189163159874,
  1720187050262724,
  1720187016724674,
  1720189196697924,
  1720187016200514,
  1720187049738564,
  1720191311159364,
  1720191311159364,
  1720189164200004,
  1720189164200004,
  1720191310635204,
  1720191310635204,
  1720189163151684,
  1720187016716484,
  1720187016716484,
  1720189163151684,
  1720187016192324,
  1720187016192324,
  1720191378268224,
  1720191378268224,
  1720189231308864,
  1720189231308864,
  1720191377744064,
  1720191377744064,
  1720189230260544,
  1720187083825344,
  1720187083825344,
  1720189230260544,
  1720187083301184,
  1720187083301184,
  1720191344721984,
  1720191344721984,
  1720189197762624,
  1720189197762624,
  1720191344197824,
  1720191344197824,
  1720189196714304,
  1720187050279104,
  1720187050279104,
  1720189196714304,
  1720187049754944,
  1720187049754944,
  1720191378260034,
  1720191378260034,
  1720189231300674,
  1720189231300674,
  1720191377735874,
  1720191377735874,
  1720189230252354,
  1720187083817154,
  1720187083817154,
  1720189230252354,
  1720187083292994,
  1720187083292994,
  1720191344705604,
  1720191311167554,
  1720189197746244,
  1720189164208194,
  1720191344181444,
  1720191310643394,
  1720189196697924,
  1720187016724674,
  1720187050262724,
  1720189163159874,
  1720187049738564,
  1720187016200514,
  1720191311167554,
  1720191344705604,
  1720189164208194,
  1720189197746244,
  1720191310643394,
  1720191344181444,
  1720189163159874,
  1720187050262724,
  1720187016724674,
  1720189196697924,
  1720187016200514,
  1720187049738564,
  1720191311159364,
  1720191311159364,
  1720189164200004,
  1720189164200004,
  1720191310635204,
  1720191310635204,
  1720189163151684,
  1720187016716484,
  1720187016716484,
  1720189163151684,
  1720187016192324,
  1720187016192324,
  162160790664388672,
  162160790664388672,
  162160788517429312,
  162160788517429312,
  162160790663864512,
  162160790663864512,
  162160788516380992,
  162160786369945792,
  162160786369945792,
  162160788516380992,
  162160786369421632,
  162160786369421632,
  162160790630842432,
  162160790630842432,
  162160788483883072,
  162160788483883072,
  162160790630318272,
  162160790630318272,
  162160788482834752,
  162160786336399552,
  162160786336399552,
  162160788482834752,
  162160786335875392,
  162160786335875392,
  162160790664380482,
  162160790664380482,
  162160788517421122,
  162160788517421122,
  162160790663856322,
  162160790663856322,
  162160788516372802,
  162160786369937602,
  162160786369937602,
  162160788516372802,
  162160786369413442,
  162160786369413442,
  162160790630826052,
  162160790597288002,
  162160788483866692,
  162160788450328642]
def wicked_capA_cert_1 : List Nat := [162160790630301892,
  162160790596763842,
  162160788482818372,
  162160786302845122,
  162160786336383172,
  162160788449280322,
  162160786335859012,
  162160786302320962,
  162160790597288002,
  162160790630826052,
  162160788450328642,
  162160788483866692,
  162160790596763842,
  162160790630301892,
  162160788449280322,
  162160786336383172,
  162160786302845122,
  162160788482818372,
  162160786302320962,
  162160786335859012,
  162160790597279812,
  162160790597279812,
  162160788450320452,
  162160788450320452,
  162160790596755652,
  162160790596755652,
  162160788449272132,
  162160786302836932,
  162160786302836932,
  162160788449272132,
  162160786302312772,
  162160786302312772,
  2283003892736064,
  2283003892736064,
  2283001745776704,
  2283001745776704,
  2283003892211904,
  2283003892211904,
  2283001744728384,
  2282999598293184,
  2282999598293184,
  2283001744728384,
  2282999597769024,
  2282999597769024,
  2283003859189824,
  2283003859189824,
  2283001712230464,
  2283001712230464,
  2283003858665664,
  2283003858665664,
  2283001711182144,
  2282999564746944,
  2282999564746944,
  2283001711182144,
  2282999564222784,
  2282999564222784,
  2283003892727874,
  2283003892727874,
  2283001745768514,
  2283001745768514,
  2283003892203714,
  2283003892203714,
  2283001744720194,
  2282999598284994,
  2282999598284994,
  2283001744720194,
  2282999597760834,
  2282999597760834,
  2283003859173444,
  2283003825635394,
  2283001712214084,
  2283001678676034,
  2283003858649284,
  2283003825111234,
  2283001711165764,
  2282999531192514,
  2282999564730564,
  2283001677627714,
  2282999564206404,
  2282999530668354,
  2283003825635394,
  2283003859173444,
  2283001678676034,
  2283001712214084,
  2283003825111234,
  2283003858649284,
  2283001677627714,
  2282999564730564,
  2282999531192514,
  2283001711165764,
  2282999530668354,
  2282999564206404,
  2283003825627204,
  2283003825627204,
  2283001678667844,
  2283001678667844,
  2283003825103044,
  2283003825103044,
  2283001677619524,
  2282999531184324,
  2282999531184324,
  2283001677619524,
  2282999530660164,
  2282999530660164,
  162160790664388672,
  162160790664388672,
  162160788517429312,
  162160788517429312,
  126140789737922752,
  126140789737922752,
  126140787590439232,
  126140785444004032,
  162160786369945792,
  162160788516380992,
  126140785443479872,
  126140785443479872,
  162160790630842432,
  162160790630842432,
  162160788483883072,
  162160788483883072,
  126140789704376512,
  126140789704376512,
  126140787556892992,
  126140785410457792,
  162160786336399552,
  162160788482834752,
  126140785409933632,
  126140785409933632,
  162160790664380482,
  162160790664380482,
  162160788517421122,
  162160788517421122,
  126140789737914562,
  126140789737914562,
  126140787590431042,
  126140785443995842,
  162160786369937602,
  162160788516372802,
  126140785443471682,
  126140785443471682,
  162160790630826052,
  162160790597288002,
  162160788483866692,
  162160788450328642,
  126140789704360132,
  126140789670822082,
  126140787556876612,
  126140785376903362,
  162160786336383172,
  162160788449280322,
  126140785409917252,
  126140785376379202,
  162160790597288002,
  162160790630826052,
  162160788450328642,
  162160788483866692,
  126140789670822082,
  126140789704360132,
  126140787523338562,
  126140785410441412,
  162160786302845122,
  162160788482818372,
  126140785376379202,
  126140785409917252,
  162160790597279812,
  162160790597279812,
  162160788450320452,
  162160788450320452,
  126140789670813892,
  126140789670813892,
  126140787523330372,
  126140785376895172,
  162160786302836932,
  162160788449272132,
  126140785376371012,
  126140785376371012]

/-- Check wicked_capA. C93 -/
theorem wicked_capA : isZero kinds [aᵥ, bᵥ, cᵥ, iₒ, jₒ, kₒ] 4
    (Prog.rep 71 39 [2, 3, 0, 1] (fifthOrder_capA) ++ (Prog.scale (-1) (Prog.scale (2) (Prog.outs [3, 4, 5, 0, 1, 2] (Prog.through wicked_antisym_T3 (build_T3_thirdO))))))
    (wicked_capA_cert_0 ++ (wicked_capA_cert_1)) = true := by decide +kernel

def wicked_square_cert_0 : List Nat := [4403416023490,
  4403449561540,
  1142169798,
  3288604998,
  5436612678,
  5436612678,
  5436612678,
  5436612678,
  5436612678,
  5436612678,
  5436612678,
  5436612678,
  5470175298,
  280280956998,
  5470175298,
  280280956998,
  1142169798,
  3288604998,
  1142169798,
  3288604998,
  1175732418,
  278132949318,
  4405564031170,
  21993487598020,
  4405564031170,
  21993487598020,
  4405564031170,
  21993487598020,
  4405564031170,
  21993487598020,
  4405631131840,
  21993521160640,
  4405631131840,
  21993521160640,
  4403416023490,
  4403449561540,
  4403416023490,
  4403449561540,
  4403483124160,
  4403483124160]

/-- Check wicked_square. C93 -/
theorem wicked_square : isZero kinds [] 1
    (Prog.scale (36) (Prog.rep 71 39 [2, 3, 0, 1] (getE_squareBrackT)) ++ (Prog.scale (-1) (Prog.cap 0 47 (build_T3))))
    (wicked_square_cert_0) = true := by decide +kernel

end Verif.Cert
