import Verif.Ein.Spin
import Verif.Gen.Triples
import Verif.Gen.SiT3

/-! Written by `/verif/tools/gen.py`. Checks of einsum programs. -/

set_option maxRecDepth 100000

namespace Verif.Cert

open Verif.Ein Verif.Ein.N


open Verif.Gen

def approxT3_aaaaaa_cert_0 : List Nat := [417753473088,
  417753473088,
  417753464898,
  417753464898,
  417752948928,
  417752948928,
  417752940738,
  417752940738,
  417753473088,
  417753473088,
  417752948928,
  417752948928,
  417753473088,
  417753473088,
  417753464898,
  417753464898,
  417753473088,
  417753473088,
  30791762190400,
  30791762190400,
  30791728644160,
  30791728644160,
  30789615231040,
  30789615231040,
  30789581684800,
  30789581684800,
  30791762190400,
  30791762190400,
  30789615231040,
  30789615231040,
  30791762190400,
  30791762190400,
  30791728644160,
  30791728644160,
  30791762190400,
  30791762190400,
  417753473088,
  417753473088,
  417753464898,
  417753464898,
  417752948928,
  417752948928,
  417752940738,
  417752940738,
  417753473088,
  417753473088,
  417752948928,
  417752948928,
  417753473088,
  417753473088,
  417753464898,
  417753464898,
  417753473088,
  417753473088,
  30791762190400,
  30791762190400,
  30791728644160,
  30791728644160,
  30789615231040,
  30789615231040,
  30789581684800,
  30789581684800,
  30791762190400,
  30791762190400,
  30789615231040,
  30789615231040,
  30791762190400,
  30791762190400,
  30791728644160,
  30791728644160,
  30791762190400,
  30791762190400]

/-- Check approxT3_aaaaaa.  -/
theorem approxT3_aaaaaa : isZeroSpin kinds [aᵥ, bᵥ, cᵥ, iₒ, jₒ, kₒ] 1 [false, false, false, false, false, false]
    (build_T3)
    (Prog.scale (-1) (approxT3_aaaaaa))
    (approxT3_aaaaaa_cert_0) = true := by decide +kernel

def approxT3_aabaab_cert_0 : List Nat := [417753473088,
  417753473088,
  417753464898,
  417753464898,
  417752948928,
  417752948928,
  417752940738,
  417752940738,
  417753473088,
  417753473088,
  417752948928,
  417752948928,
  417753473088,
  417753473088,
  417753464898,
  417753464898,
  30791728644160,
  30791728644160,
  30789615231040,
  30789615231040,
  30789581684800,
  30789581684800,
  30791762190400,
  30791762190400,
  30789615231040,
  30789615231040,
  30791762190400,
  30791762190400,
  30791728644160,
  30791728644160,
  30791762190400,
  30791762190400,
  417753473088,
  417753473088,
  417753464898,
  417753464898,
  417752948928,
  417752948928,
  417752940738,
  417752940738,
  417753473088,
  417753473088,
  417752948928,
  417752948928,
  417753473088,
  417753473088,
  417753464898,
  417753464898,
  30791762190400,
  30791762190400,
  30791762190400,
  30791762190400,
  30791762190400,
  30791762190400,
  30791762190400,
  30791762190400,
  30791762190400,
  30791762190400,
  30791762190400,
  30791762190400,
  30791762190400,
  30791762190400,
  30791762190400,
  30791762190400]

/-- Check approxT3_aabaab.  -/
theorem approxT3_aabaab : isZeroSpin kinds [aᵥ, bᵥ, cᵥ, iₒ, jₒ, kₒ] 1 [false, false, true, false, false, true]
    (build_T3)
    (Prog.scale (-1) (approxT3_aabaab))
    (approxT3_aabaab_cert_0) = true := by decide +kernel

def approxT3_abbabb_cert_0 : List Nat := [417753464898,
  417753464898,
  417752948928,
  417752948928,
  417752940738,
  417752940738,
  417753473088,
  417753473088,
  417752948928,
  417752948928,
  417753473088,
  417753473088,
  417753464898,
  417753464898,
  417753473088,
  417753473088,
  30791762190400,
  30791762190400,
  30791728644160,
  30791728644160,
  30789615231040,
  30789615231040,
  30789581684800,
  30789581684800,
  30791762190400,
  30791762190400,
  30789615231040,
  30789615231040,
  30791762190400,
  30791762190400,
  30791728644160,
  30791728644160,
  417753473088,
  417753473088,
  417753473088,
  417753473088,
  417753473088,
  417753473088,
  417753473088,
  417753473088,
  417753473088,
  417753473088,
  417753473088,
  417753473088,
  417753473088,
  417753473088,
  417753473088,
  417753473088,
  30791762190400,
  30791762190400,
  30791728644160,
  30791728644160,
  30789615231040,
  30789615231040,
  30789581684800,
  30789581684800,
  30791762190400,
  30791762190400,
  30789615231040,
  30789615231040,
  30791762190400,
  30791762190400,
  30791728644160,
  30791728644160]

/-- Check approxT3_abbabb.  -/
theorem approxT3_abbabb : isZeroSpin kinds [aᵥ, bᵥ, cᵥ, iₒ, jₒ, kₒ] 1 [false, true, true, false, true, true]
    (build_T3)
    (Prog.scale (-1) (approxT3_abbabb))
    (approxT3_abbabb_cert_0) = true := by decide +kernel

def approxT3_bbbbbb_cert_0 : List Nat := [417753473088,
  417753473088,
  417753464898,
  417753464898,
  417752948928,
  417752948928,
  417752940738,
  417752940738,
  417753473088,
  417753473088,
  417752948928,
  417752948928,
  417753473088,
  417753473088,
  417753464898,
  417753464898,
  417753473088,
  417753473088,
  30791762190400,
  30791762190400,
  30791728644160,
  30791728644160,
  30789615231040,
  30789615231040,
  30789581684800,
  30789581684800,
  30791762190400,
  30791762190400,
  30789615231040,
  30789615231040,
  30791762190400,
  30791762190400,
  30791728644160,
  30791728644160,
  30791762190400,
  30791762190400,
  417753473088,
  417753473088,
  417753464898,
  417753464898,
  417752948928,
  417752948928,
  417752940738,
  417752940738,
  417753473088,
  417753473088,
  417752948928,
  417752948928,
  417753473088,
  417753473088,
  417753464898,
  417753464898,
  417753473088,
  417753473088,
  30791762190400,
  30791762190400,
  30791728644160,
  30791728644160,
  30789615231040,
  30789615231040,
  30789581684800,
  30789581684800,
  30791762190400,
  30791762190400,
  30789615231040,
  30789615231040,
  30791762190400,
  30791762190400,
  30791728644160,
  30791728644160,
  30791762190400,
  30791762190400]

/-- Check approxT3_bbbbbb.  -/
theorem approxT3_bbbbbb : isZeroSpin kinds [aᵥ, bᵥ, cᵥ, iₒ, jₒ, kₒ] 1 [true, true, true, true, true, true]
    (build_T3)
    (Prog.scale (-1) (approxT3_bbbbbb))
    (approxT3_bbbbbb_cert_0) = true := by decide +kernel

def squareT_spin_cert_0 : List Nat := [138580590918,
  1141662018,
  138580590918,
  1141662018,
  138581115078,
  3288621378,
  1141645638,
  1141645638,
  1142169798,
  3288604998,
  1141645638,
  1141645638,
  138580590918,
  1141662018,
  138580590918,
  1141662018,
  138581115078,
  3288621378,
  275952443718,
  1175200068,
  275952967878,
  3322159428,
  275952443718,
  1175200068,
  275985989958,
  1175208258,
  275985989958,
  1175208258,
  275986514118,
  3322167618,
  138580590918,
  1141662018,
  138581115078,
  3288621378,
  138580590918,
  1141662018,
  21993454059970,
  4405597569220,
  21993454059970,
  4405597569220,
  21993454051780,
  4405564022980,
  21991307100610,
  4405597045060,
  21991307092420,
  4405563498820,
  21991307100610,
  4405597045060,
  4403416023490,
  4403449561540,
  4403416015300,
  4403416015300,
  4403416023490,
  4403449561540,
  21993454059970,
  4405597569220,
  21993454059970,
  4405597569220,
  21993454051780,
  4405564022980,
  13199508521410,
  4403450609860,
  13199508521410,
  4403450609860,
  13199508513220,
  4403417063620,
  21993454059970,
  4405597569220,
  21993454051780,
  4405564022980,
  21993454059970,
  4405597569220,
  138580590918,
  1141662018,
  138580590918,
  1141662018,
  275985989958,
  1175208258,
  1141645638,
  1141645638,
  275952443718,
  1175200068,
  138580590918,
  1141662018,
  1142169798,
  3288604998,
  275952967878,
  3322159428,
  138581115078,
  3288621378,
  138580590918,
  1141662018,
  138580590918,
  1141662018,
  275985989958,
  1175208258,
  138581115078,
  3288621378,
  138581115078,
  3288621378,
  275986514118,
  3322167618,
  1141645638,
  1141645638,
  275952443718,
  1175200068,
  138580590918,
  1141662018,
  21993454059970,
  4405597569220,
  21993454059970,
  4405597569220,
  13199508521410,
  4403450609860,
  21993454059970,
  4405597569220,
  21993454059970,
  4405597569220,
  13199508521410,
  4403450609860,
  21991307100610,
  4405597045060,
  4403416023490,
  4403449561540,
  21993454059970,
  4405597569220,
  21993454051780,
  4405564022980,
  21993454051780,
  4405564022980,
  13199508513220,
  4403417063620,
  21991307092420,
  4405563498820,
  4403416015300,
  4403416015300,
  21993454051780,
  4405564022980,
  21991307100610,
  4405597045060,
  4403416023490,
  4403449561540,
  21993454059970,
  4405597569220]

/-- Check squareT_spin.  -/
theorem squareT_spin : isZeroSpin kinds [] 4 []
    (pdagq_T3energy)
    (Prog.scale (-1) (square_brakT))
    (squareT_spin_cert_0) = true := by decide +kernel

end Verif.Cert
