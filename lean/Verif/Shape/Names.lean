import Verif.Shape.Core

/-!
# Names of subscript letters, variables and functions (generated by tools/shapegen.py)
-/

namespace Verif.Shape

/-! Abbreviations used in the generated programs. -/

abbrev ein1 (l1 out : List Nat) (a1 : Arg) : Term := .ein [l1] out [a1]
abbrev ein2 (l1 l2 out : List Nat) (a1 a2 : Arg) : Term := .ein [l1, l2] out [a1, a2]
abbrev ein3 (l1 l2 l3 out : List Nat) (a1 a2 a3 : Arg) : Term := .ein [l1, l2, l3] out [a1, a2, a3]
abbrev ein4 (l1 l2 l3 l4 out : List Nat) (a1 a2 a3 a4 : Arg) : Term := .ein [l1, l2, l3, l4] out [a1, a2, a3, a4]
abbrev ein5 (l1 l2 l3 l4 l5 out : List Nat) (a1 a2 a3 a4 a5 : Arg) : Term := .ein [l1, l2, l3, l4, l5] out [a1, a2, a3, a4, a5]
abbrev ein6 (l1 l2 l3 l4 l5 l6 out : List Nat) (a1 a2 a3 a4 a5 a6 : Arg) : Term := .ein [l1, l2, l3, l4, l5, l6] out [a1, a2, a3, a4, a5, a6]
abbrev ein7 (l1 l2 l3 l4 l5 l6 l7 out : List Nat) (a1 a2 a3 a4 a5 a6 a7 : Arg) : Term := .ein [l1, l2, l3, l4, l5, l6, l7] out [a1, a2, a3, a4, a5, a6, a7]
abbrev set1 (x : Nat) (t : Term) : Stmt := .set x [t]
abbrev aug1 (x : Nat) (t : Term) : Stmt := .aug x [t]

/-! Subscripts: the letter `a` is 0, `b` is 1, ... -/

def L.aa : List Nat := [0, 0]
def L.aaii : List Nat := [0, 0, 8, 8]
def L.aajj : List Nat := [0, 0, 9, 9]
def L.ab : List Nat := [0, 1]
def L.abcd : List Nat := [0, 1, 2, 3]
def L.abcdijkl : List Nat := [0, 1, 2, 3, 8, 9, 10, 11]
def L.abcdijkm : List Nat := [0, 1, 2, 3, 8, 9, 10, 12]
def L.abcdijkn : List Nat := [0, 1, 2, 3, 8, 9, 10, 13]
def L.abcdijlk : List Nat := [0, 1, 2, 3, 8, 9, 11, 10]
def L.abcdijml : List Nat := [0, 1, 2, 3, 8, 9, 12, 11]
def L.abcdijmn : List Nat := [0, 1, 2, 3, 8, 9, 12, 13]
def L.abcdijnl : List Nat := [0, 1, 2, 3, 8, 9, 13, 11]
def L.abcdijnm : List Nat := [0, 1, 2, 3, 8, 9, 13, 12]
def L.abcdikjl : List Nat := [0, 1, 2, 3, 8, 10, 9, 11]
def L.abcdiklm : List Nat := [0, 1, 2, 3, 8, 10, 11, 12]
def L.abcdikln : List Nat := [0, 1, 2, 3, 8, 10, 11, 13]
def L.abcdikml : List Nat := [0, 1, 2, 3, 8, 10, 12, 11]
def L.abcdiknl : List Nat := [0, 1, 2, 3, 8, 10, 13, 11]
def L.abcdilkj : List Nat := [0, 1, 2, 3, 8, 11, 10, 9]
def L.abcdilnm : List Nat := [0, 1, 2, 3, 8, 11, 13, 12]
def L.abcdimlk : List Nat := [0, 1, 2, 3, 8, 12, 11, 10]
def L.abcdimnk : List Nat := [0, 1, 2, 3, 8, 12, 13, 10]
def L.abcdimnl : List Nat := [0, 1, 2, 3, 8, 12, 13, 11]
def L.abcdinkm : List Nat := [0, 1, 2, 3, 8, 13, 10, 12]
def L.abcdinlk : List Nat := [0, 1, 2, 3, 8, 13, 11, 10]
def L.abcdinlm : List Nat := [0, 1, 2, 3, 8, 13, 11, 12]
def L.abcdjikl : List Nat := [0, 1, 2, 3, 9, 8, 10, 11]
def L.abcdjkmn : List Nat := [0, 1, 2, 3, 9, 10, 12, 13]
def L.abcdjknm : List Nat := [0, 1, 2, 3, 9, 10, 13, 12]
def L.abcdjmnk : List Nat := [0, 1, 2, 3, 9, 12, 13, 10]
def L.abcdjmnl : List Nat := [0, 1, 2, 3, 9, 12, 13, 11]
def L.abcdjnkm : List Nat := [0, 1, 2, 3, 9, 13, 10, 12]
def L.abcdkjil : List Nat := [0, 1, 2, 3, 10, 9, 8, 11]
def L.abcdljki : List Nat := [0, 1, 2, 3, 11, 9, 10, 8]
def L.abcdmklj : List Nat := [0, 1, 2, 3, 12, 10, 11, 9]
def L.abcdmknj : List Nat := [0, 1, 2, 3, 12, 10, 13, 9]
def L.abcdmlnk : List Nat := [0, 1, 2, 3, 12, 11, 13, 10]
def L.abcdnkjm : List Nat := [0, 1, 2, 3, 13, 10, 9, 12]
def L.abcdnklj : List Nat := [0, 1, 2, 3, 13, 10, 11, 9]
def L.abcdnlkm : List Nat := [0, 1, 2, 3, 13, 11, 10, 12]
def L.abcdnmkl : List Nat := [0, 1, 2, 3, 13, 12, 10, 11]
def L.abcijk : List Nat := [0, 1, 2, 8, 9, 10]
def L.abcijl : List Nat := [0, 1, 2, 8, 9, 11]
def L.abcijm : List Nat := [0, 1, 2, 8, 9, 12]
def L.abcikj : List Nat := [0, 1, 2, 8, 10, 9]
def L.abcikl : List Nat := [0, 1, 2, 8, 10, 11]
def L.abcilk : List Nat := [0, 1, 2, 8, 11, 10]
def L.abcilm : List Nat := [0, 1, 2, 8, 11, 12]
def L.abcimk : List Nat := [0, 1, 2, 8, 12, 10]
def L.abciml : List Nat := [0, 1, 2, 8, 12, 11]
def L.abcj : List Nat := [0, 1, 2, 9]
def L.abcjik : List Nat := [0, 1, 2, 9, 8, 10]
def L.abcjkl : List Nat := [0, 1, 2, 9, 10, 11]
def L.abcjkm : List Nat := [0, 1, 2, 9, 10, 12]
def L.abcjlk : List Nat := [0, 1, 2, 9, 11, 10]
def L.abcjlm : List Nat := [0, 1, 2, 9, 11, 12]
def L.abcjmk : List Nat := [0, 1, 2, 9, 12, 10]
def L.abcjml : List Nat := [0, 1, 2, 9, 12, 11]
def L.abckji : List Nat := [0, 1, 2, 10, 9, 8]
def L.abckli : List Nat := [0, 1, 2, 10, 11, 8]
def L.abckml : List Nat := [0, 1, 2, 10, 12, 11]
def L.abclik : List Nat := [0, 1, 2, 11, 8, 10]
def L.abclkj : List Nat := [0, 1, 2, 11, 10, 9]
def L.abclmj : List Nat := [0, 1, 2, 11, 12, 9]
def L.abclmk : List Nat := [0, 1, 2, 11, 12, 10]
def L.abcmjl : List Nat := [0, 1, 2, 12, 9, 11]
def L.abcmkj : List Nat := [0, 1, 2, 12, 10, 9]
def L.abcmkl : List Nat := [0, 1, 2, 12, 10, 11]
def L.abdc : List Nat := [0, 1, 3, 2]
def L.abdcijkl : List Nat := [0, 1, 3, 2, 8, 9, 10, 11]
def L.abdcijlk : List Nat := [0, 1, 3, 2, 8, 9, 11, 10]
def L.abdcikjl : List Nat := [0, 1, 3, 2, 8, 10, 9, 11]
def L.abdcjikl : List Nat := [0, 1, 3, 2, 9, 8, 10, 11]
def L.abdckjil : List Nat := [0, 1, 3, 2, 10, 9, 8, 11]
def L.abde : List Nat := [0, 1, 3, 4]
def L.abdi : List Nat := [0, 1, 3, 8]
def L.abdijm : List Nat := [0, 1, 3, 8, 9, 12]
def L.abdilm : List Nat := [0, 1, 3, 8, 11, 12]
def L.abdimk : List Nat := [0, 1, 3, 8, 12, 10]
def L.abdiml : List Nat := [0, 1, 3, 8, 12, 11]
def L.abdj : List Nat := [0, 1, 3, 9]
def L.abdjkm : List Nat := [0, 1, 3, 9, 10, 12]
def L.abdjmk : List Nat := [0, 1, 3, 9, 12, 10]
def L.abdjml : List Nat := [0, 1, 3, 9, 12, 11]
def L.abdk : List Nat := [0, 1, 3, 10]
def L.abdmkj : List Nat := [0, 1, 3, 12, 10, 9]
def L.abdmlk : List Nat := [0, 1, 3, 12, 11, 10]
def L.abed : List Nat := [0, 1, 4, 3]
def L.abef : List Nat := [0, 1, 4, 5]
def L.abefijkl : List Nat := [0, 1, 4, 5, 8, 9, 10, 11]
def L.abefijkn : List Nat := [0, 1, 4, 5, 8, 9, 10, 13]
def L.abefijln : List Nat := [0, 1, 4, 5, 8, 9, 11, 13]
def L.abefikln : List Nat := [0, 1, 4, 5, 8, 10, 11, 13]
def L.abej : List Nat := [0, 1, 4, 9]
def L.abek : List Nat := [0, 1, 4, 10]
def L.abel : List Nat := [0, 1, 4, 11]
def L.abfe : List Nat := [0, 1, 5, 4]
def L.abic : List Nat := [0, 1, 8, 2]
def L.abid : List Nat := [0, 1, 8, 3]
def L.abie : List Nat := [0, 1, 8, 4]
def L.abij : List Nat := [0, 1, 8, 9]
def L.abik : List Nat := [0, 1, 8, 10]
def L.abil : List Nat := [0, 1, 8, 11]
def L.abim : List Nat := [0, 1, 8, 12]
def L.abin : List Nat := [0, 1, 8, 13]
def L.abji : List Nat := [0, 1, 9, 8]
def L.abjk : List Nat := [0, 1, 9, 10]
def L.abjl : List Nat := [0, 1, 9, 11]
def L.abjm : List Nat := [0, 1, 9, 12]
def L.abjn : List Nat := [0, 1, 9, 13]
def L.abkj : List Nat := [0, 1, 10, 9]
def L.abkl : List Nat := [0, 1, 10, 11]
def L.abkm : List Nat := [0, 1, 10, 12]
def L.abkn : List Nat := [0, 1, 10, 13]
def L.able : List Nat := [0, 1, 11, 4]
def L.ablj : List Nat := [0, 1, 11, 9]
def L.ablk : List Nat := [0, 1, 11, 10]
def L.ablm : List Nat := [0, 1, 11, 12]
def L.abln : List Nat := [0, 1, 11, 13]
def L.abmd : List Nat := [0, 1, 12, 3]
def L.abmi : List Nat := [0, 1, 12, 8]
def L.abmj : List Nat := [0, 1, 12, 9]
def L.abmk : List Nat := [0, 1, 12, 10]
def L.abml : List Nat := [0, 1, 12, 11]
def L.abmn : List Nat := [0, 1, 12, 13]
def L.abnd : List Nat := [0, 1, 13, 3]
def L.abni : List Nat := [0, 1, 13, 8]
def L.abnj : List Nat := [0, 1, 13, 9]
def L.abnk : List Nat := [0, 1, 13, 10]
def L.abnl : List Nat := [0, 1, 13, 11]
def L.abnm : List Nat := [0, 1, 13, 12]
def L.ac : List Nat := [0, 2]
def L.acbdijkl : List Nat := [0, 2, 1, 3, 8, 9, 10, 11]
def L.acbdijlk : List Nat := [0, 2, 1, 3, 8, 9, 11, 10]
def L.acbdikjl : List Nat := [0, 2, 1, 3, 8, 10, 9, 11]
def L.acbdilkj : List Nat := [0, 2, 1, 3, 8, 11, 10, 9]
def L.acbdjikl : List Nat := [0, 2, 1, 3, 9, 8, 10, 11]
def L.acbdkjil : List Nat := [0, 2, 1, 3, 10, 9, 8, 11]
def L.acbdljki : List Nat := [0, 2, 1, 3, 11, 9, 10, 8]
def L.acbijk : List Nat := [0, 2, 1, 8, 9, 10]
def L.acbijm : List Nat := [0, 2, 1, 8, 9, 12]
def L.acbikj : List Nat := [0, 2, 1, 8, 10, 9]
def L.acbikm : List Nat := [0, 2, 1, 8, 10, 12]
def L.acbilk : List Nat := [0, 2, 1, 8, 11, 10]
def L.acbkjm : List Nat := [0, 2, 1, 10, 9, 12]
def L.acbklj : List Nat := [0, 2, 1, 10, 11, 9]
def L.acbklm : List Nat := [0, 2, 1, 10, 11, 12]
def L.acbljk : List Nat := [0, 2, 1, 11, 9, 10]
def L.acblkm : List Nat := [0, 2, 1, 11, 10, 12]
def L.acbmkj : List Nat := [0, 2, 1, 12, 10, 9]
def L.acbmlk : List Nat := [0, 2, 1, 12, 11, 10]
def L.acde : List Nat := [0, 2, 3, 4]
def L.acdijm : List Nat := [0, 2, 3, 8, 9, 12]
def L.acdikm : List Nat := [0, 2, 3, 8, 10, 12]
def L.acdilm : List Nat := [0, 2, 3, 8, 11, 12]
def L.acdimj : List Nat := [0, 2, 3, 8, 12, 9]
def L.acdimk : List Nat := [0, 2, 3, 8, 12, 10]
def L.acdk : List Nat := [0, 2, 3, 10]
def L.acdkml : List Nat := [0, 2, 3, 10, 12, 11]
def L.acdmkj : List Nat := [0, 2, 3, 12, 10, 9]
def L.acdmlk : List Nat := [0, 2, 3, 12, 11, 10]
def L.aced : List Nat := [0, 2, 4, 3]
def L.acef : List Nat := [0, 2, 4, 5]
def L.aceijk : List Nat := [0, 2, 4, 8, 9, 10]
def L.aceikj : List Nat := [0, 2, 4, 8, 10, 9]
def L.aceikl : List Nat := [0, 2, 4, 8, 10, 11]
def L.aceilk : List Nat := [0, 2, 4, 8, 11, 10]
def L.acekjl : List Nat := [0, 2, 4, 10, 9, 11]
def L.acel : List Nat := [0, 2, 4, 11]
def L.acelkj : List Nat := [0, 2, 4, 11, 10, 9]
def L.acfe : List Nat := [0, 2, 5, 4]
def L.acid : List Nat := [0, 2, 8, 3]
def L.acij : List Nat := [0, 2, 8, 9]
def L.acik : List Nat := [0, 2, 8, 10]
def L.acil : List Nat := [0, 2, 8, 11]
def L.acim : List Nat := [0, 2, 8, 12]
def L.acin : List Nat := [0, 2, 8, 13]
def L.acjd : List Nat := [0, 2, 9, 3]
def L.acje : List Nat := [0, 2, 9, 4]
def L.acjk : List Nat := [0, 2, 9, 10]
def L.acjl : List Nat := [0, 2, 9, 11]
def L.acjm : List Nat := [0, 2, 9, 12]
def L.ackj : List Nat := [0, 2, 10, 9]
def L.ackl : List Nat := [0, 2, 10, 11]
def L.ackm : List Nat := [0, 2, 10, 12]
def L.ackn : List Nat := [0, 2, 10, 13]
def L.aclj : List Nat := [0, 2, 11, 9]
def L.aclk : List Nat := [0, 2, 11, 10]
def L.aclm : List Nat := [0, 2, 11, 12]
def L.acmi : List Nat := [0, 2, 12, 8]
def L.acmj : List Nat := [0, 2, 12, 9]
def L.acmk : List Nat := [0, 2, 12, 10]
def L.acml : List Nat := [0, 2, 12, 11]
def L.acmn : List Nat := [0, 2, 12, 13]
def L.acni : List Nat := [0, 2, 13, 8]
def L.acnj : List Nat := [0, 2, 13, 9]
def L.acnk : List Nat := [0, 2, 13, 10]
def L.acnl : List Nat := [0, 2, 13, 11]
def L.acnm : List Nat := [0, 2, 13, 12]
def L.ad : List Nat := [0, 3]
def L.adbcijkl : List Nat := [0, 3, 1, 2, 8, 9, 10, 11]
def L.adbcijlk : List Nat := [0, 3, 1, 2, 8, 9, 11, 10]
def L.adbciklj : List Nat := [0, 3, 1, 2, 8, 10, 11, 9]
def L.adbciljk : List Nat := [0, 3, 1, 2, 8, 11, 9, 10]
def L.adbcjilk : List Nat := [0, 3, 1, 2, 9, 8, 11, 10]
def L.adbckjli : List Nat := [0, 3, 1, 2, 10, 9, 11, 8]
def L.adbcljik : List Nat := [0, 3, 1, 2, 11, 9, 8, 10]
def L.adbijk : List Nat := [0, 3, 1, 8, 9, 10]
def L.adbijl : List Nat := [0, 3, 1, 8, 9, 11]
def L.adbijm : List Nat := [0, 3, 1, 8, 9, 12]
def L.adbilk : List Nat := [0, 3, 1, 8, 11, 10]
def L.adbklj : List Nat := [0, 3, 1, 10, 11, 9]
def L.adbljk : List Nat := [0, 3, 1, 11, 9, 10]
def L.adblkj : List Nat := [0, 3, 1, 11, 10, 9]
def L.adbmkj : List Nat := [0, 3, 1, 12, 10, 9]
def L.adcbijkl : List Nat := [0, 3, 2, 1, 8, 9, 10, 11]
def L.adcbijlk : List Nat := [0, 3, 2, 1, 8, 9, 11, 10]
def L.adcbikjl : List Nat := [0, 3, 2, 1, 8, 10, 9, 11]
def L.adcbiklj : List Nat := [0, 3, 2, 1, 8, 10, 11, 9]
def L.adcbiljk : List Nat := [0, 3, 2, 1, 8, 11, 9, 10]
def L.adcbjikl : List Nat := [0, 3, 2, 1, 9, 8, 10, 11]
def L.adcbkjil : List Nat := [0, 3, 2, 1, 10, 9, 8, 11]
def L.adcijk : List Nat := [0, 3, 2, 8, 9, 10]
def L.adcijl : List Nat := [0, 3, 2, 8, 9, 11]
def L.adcijm : List Nat := [0, 3, 2, 8, 9, 12]
def L.adcikj : List Nat := [0, 3, 2, 8, 10, 9]
def L.adcilj : List Nat := [0, 3, 2, 8, 11, 9]
def L.adcjik : List Nat := [0, 3, 2, 9, 8, 10]
def L.adckji : List Nat := [0, 3, 2, 10, 9, 8]
def L.adclkj : List Nat := [0, 3, 2, 11, 10, 9]
def L.adcmkj : List Nat := [0, 3, 2, 12, 10, 9]
def L.adef : List Nat := [0, 3, 4, 5]
def L.adej : List Nat := [0, 3, 4, 9]
def L.adel : List Nat := [0, 3, 4, 11]
def L.adfe : List Nat := [0, 3, 5, 4]
def L.adie : List Nat := [0, 3, 8, 4]
def L.adij : List Nat := [0, 3, 8, 9]
def L.adik : List Nat := [0, 3, 8, 10]
def L.adil : List Nat := [0, 3, 8, 11]
def L.adim : List Nat := [0, 3, 8, 12]
def L.adin : List Nat := [0, 3, 8, 13]
def L.adje : List Nat := [0, 3, 9, 4]
def L.adjk : List Nat := [0, 3, 9, 10]
def L.adjl : List Nat := [0, 3, 9, 11]
def L.adjm : List Nat := [0, 3, 9, 12]
def L.adjn : List Nat := [0, 3, 9, 13]
def L.adke : List Nat := [0, 3, 10, 4]
def L.adkj : List Nat := [0, 3, 10, 9]
def L.adkl : List Nat := [0, 3, 10, 11]
def L.adkm : List Nat := [0, 3, 10, 12]
def L.adkn : List Nat := [0, 3, 10, 13]
def L.adle : List Nat := [0, 3, 11, 4]
def L.adlj : List Nat := [0, 3, 11, 9]
def L.adlk : List Nat := [0, 3, 11, 10]
def L.adlm : List Nat := [0, 3, 11, 12]
def L.adln : List Nat := [0, 3, 11, 13]
def L.admj : List Nat := [0, 3, 12, 9]
def L.admk : List Nat := [0, 3, 12, 10]
def L.adml : List Nat := [0, 3, 12, 11]
def L.admn : List Nat := [0, 3, 12, 13]
def L.adnj : List Nat := [0, 3, 13, 9]
def L.adnk : List Nat := [0, 3, 13, 10]
def L.adnl : List Nat := [0, 3, 13, 11]
def L.adnm : List Nat := [0, 3, 13, 12]
def L.ae : List Nat := [0, 4]
def L.aebdijkl : List Nat := [0, 4, 1, 3, 8, 9, 10, 11]
def L.aebdijkm : List Nat := [0, 4, 1, 3, 8, 9, 10, 12]
def L.aebdiklm : List Nat := [0, 4, 1, 3, 8, 10, 11, 12]
def L.aebdmklj : List Nat := [0, 4, 1, 3, 12, 10, 11, 9]
def L.aebijk : List Nat := [0, 4, 1, 8, 9, 10]
def L.aebijl : List Nat := [0, 4, 1, 8, 9, 11]
def L.aebijm : List Nat := [0, 4, 1, 8, 9, 12]
def L.aebikl : List Nat := [0, 4, 1, 8, 10, 11]
def L.aebiml : List Nat := [0, 4, 1, 8, 12, 11]
def L.aebkjl : List Nat := [0, 4, 1, 10, 9, 11]
def L.aeblkj : List Nat := [0, 4, 1, 11, 10, 9]
def L.aeblmj : List Nat := [0, 4, 1, 11, 12, 9]
def L.aeblmk : List Nat := [0, 4, 1, 11, 12, 10]
def L.aebmjl : List Nat := [0, 4, 1, 12, 9, 11]
def L.aebmkj : List Nat := [0, 4, 1, 12, 10, 9]
def L.aebmkl : List Nat := [0, 4, 1, 12, 10, 11]
def L.aecdijkl : List Nat := [0, 4, 2, 3, 8, 9, 10, 11]
def L.aecdijkm : List Nat := [0, 4, 2, 3, 8, 9, 10, 12]
def L.aecdiklm : List Nat := [0, 4, 2, 3, 8, 10, 11, 12]
def L.aecdmklj : List Nat := [0, 4, 2, 3, 12, 10, 11, 9]
def L.aecijk : List Nat := [0, 4, 2, 8, 9, 10]
def L.aecijl : List Nat := [0, 4, 2, 8, 9, 11]
def L.aecijm : List Nat := [0, 4, 2, 8, 9, 12]
def L.aecikl : List Nat := [0, 4, 2, 8, 10, 11]
def L.aeciml : List Nat := [0, 4, 2, 8, 12, 11]
def L.aeclkj : List Nat := [0, 4, 2, 11, 10, 9]
def L.aeclmj : List Nat := [0, 4, 2, 11, 12, 9]
def L.aeclmk : List Nat := [0, 4, 2, 11, 12, 10]
def L.aecmjl : List Nat := [0, 4, 2, 12, 9, 11]
def L.aecmkj : List Nat := [0, 4, 2, 12, 10, 9]
def L.aecmkl : List Nat := [0, 4, 2, 12, 10, 11]
def L.aedijk : List Nat := [0, 4, 3, 8, 9, 10]
def L.aedijm : List Nat := [0, 4, 3, 8, 9, 12]
def L.aedikl : List Nat := [0, 4, 3, 8, 10, 11]
def L.aedikm : List Nat := [0, 4, 3, 8, 10, 12]
def L.aedimj : List Nat := [0, 4, 3, 8, 12, 9]
def L.aedimk : List Nat := [0, 4, 3, 8, 12, 10]
def L.aedjkm : List Nat := [0, 4, 3, 9, 10, 12]
def L.aedjmk : List Nat := [0, 4, 3, 9, 12, 10]
def L.aeij : List Nat := [0, 4, 8, 9]
def L.aeik : List Nat := [0, 4, 8, 10]
def L.aeil : List Nat := [0, 4, 8, 11]
def L.aeim : List Nat := [0, 4, 8, 12]
def L.aein : List Nat := [0, 4, 8, 13]
def L.aeji : List Nat := [0, 4, 9, 8]
def L.aejk : List Nat := [0, 4, 9, 10]
def L.aejl : List Nat := [0, 4, 9, 11]
def L.aejm : List Nat := [0, 4, 9, 12]
def L.aekj : List Nat := [0, 4, 10, 9]
def L.aekl : List Nat := [0, 4, 10, 11]
def L.aekm : List Nat := [0, 4, 10, 12]
def L.aekn : List Nat := [0, 4, 10, 13]
def L.aeli : List Nat := [0, 4, 11, 8]
def L.aelj : List Nat := [0, 4, 11, 9]
def L.aelk : List Nat := [0, 4, 11, 10]
def L.aelm : List Nat := [0, 4, 11, 12]
def L.aemi : List Nat := [0, 4, 12, 8]
def L.aemj : List Nat := [0, 4, 12, 9]
def L.aemk : List Nat := [0, 4, 12, 10]
def L.aeml : List Nat := [0, 4, 12, 11]
def L.aemn : List Nat := [0, 4, 12, 13]
def L.aeni : List Nat := [0, 4, 13, 8]
def L.aenk : List Nat := [0, 4, 13, 10]
def L.aenm : List Nat := [0, 4, 13, 12]
def L.afbdijkl : List Nat := [0, 5, 1, 3, 8, 9, 10, 11]
def L.afbdijkn : List Nat := [0, 5, 1, 3, 8, 9, 10, 13]
def L.afbdijnm : List Nat := [0, 5, 1, 3, 8, 9, 13, 12]
def L.afbdikln : List Nat := [0, 5, 1, 3, 8, 10, 11, 13]
def L.afbdilnm : List Nat := [0, 5, 1, 3, 8, 11, 13, 12]
def L.afbdmknj : List Nat := [0, 5, 1, 3, 12, 10, 13, 9]
def L.afbdmlnk : List Nat := [0, 5, 1, 3, 12, 11, 13, 10]
def L.afbdnkjm : List Nat := [0, 5, 1, 3, 13, 10, 9, 12]
def L.afbdnklj : List Nat := [0, 5, 1, 3, 13, 10, 11, 9]
def L.afbdnlkm : List Nat := [0, 5, 1, 3, 13, 11, 10, 12]
def L.afcdijkl : List Nat := [0, 5, 2, 3, 8, 9, 10, 11]
def L.afcdijkn : List Nat := [0, 5, 2, 3, 8, 9, 10, 13]
def L.afcdijnm : List Nat := [0, 5, 2, 3, 8, 9, 13, 12]
def L.afcdikln : List Nat := [0, 5, 2, 3, 8, 10, 11, 13]
def L.afcdilnm : List Nat := [0, 5, 2, 3, 8, 11, 13, 12]
def L.afcdmknj : List Nat := [0, 5, 2, 3, 12, 10, 13, 9]
def L.afcdmlnk : List Nat := [0, 5, 2, 3, 12, 11, 13, 10]
def L.afcdnkjm : List Nat := [0, 5, 2, 3, 13, 10, 9, 12]
def L.afcdnklj : List Nat := [0, 5, 2, 3, 13, 10, 11, 9]
def L.afcdnlkm : List Nat := [0, 5, 2, 3, 13, 11, 10, 12]
def L.afecijkl : List Nat := [0, 5, 4, 2, 8, 9, 10, 11]
def L.afecijkn : List Nat := [0, 5, 4, 2, 8, 9, 10, 13]
def L.afecikln : List Nat := [0, 5, 4, 2, 8, 10, 11, 13]
def L.afecinkj : List Nat := [0, 5, 4, 2, 8, 13, 10, 9]
def L.afecinlk : List Nat := [0, 5, 4, 2, 8, 13, 11, 10]
def L.afedijkl : List Nat := [0, 5, 4, 3, 8, 9, 10, 11]
def L.afedijkn : List Nat := [0, 5, 4, 3, 8, 9, 10, 13]
def L.afedijln : List Nat := [0, 5, 4, 3, 8, 9, 11, 13]
def L.afedikln : List Nat := [0, 5, 4, 3, 8, 10, 11, 13]
def L.afedinkj : List Nat := [0, 5, 4, 3, 8, 13, 10, 9]
def L.afedinlk : List Nat := [0, 5, 4, 3, 8, 13, 11, 10]
def L.afij : List Nat := [0, 5, 8, 9]
def L.afik : List Nat := [0, 5, 8, 10]
def L.afil : List Nat := [0, 5, 8, 11]
def L.afim : List Nat := [0, 5, 8, 12]
def L.afin : List Nat := [0, 5, 8, 13]
def L.afji : List Nat := [0, 5, 9, 8]
def L.afjk : List Nat := [0, 5, 9, 10]
def L.afjm : List Nat := [0, 5, 9, 12]
def L.afki : List Nat := [0, 5, 10, 8]
def L.afkj : List Nat := [0, 5, 10, 9]
def L.afkl : List Nat := [0, 5, 10, 11]
def L.afkm : List Nat := [0, 5, 10, 12]
def L.afkn : List Nat := [0, 5, 10, 13]
def L.aflj : List Nat := [0, 5, 11, 9]
def L.aflk : List Nat := [0, 5, 11, 10]
def L.aflm : List Nat := [0, 5, 11, 12]
def L.afmi : List Nat := [0, 5, 12, 8]
def L.afmj : List Nat := [0, 5, 12, 9]
def L.afmk : List Nat := [0, 5, 12, 10]
def L.afml : List Nat := [0, 5, 12, 11]
def L.afmn : List Nat := [0, 5, 12, 13]
def L.afni : List Nat := [0, 5, 13, 8]
def L.afnj : List Nat := [0, 5, 13, 9]
def L.afnk : List Nat := [0, 5, 13, 10]
def L.ai : List Nat := [0, 8]
def L.aj : List Nat := [0, 9]
def L.ajbc : List Nat := [0, 9, 1, 2]
def L.ajcb : List Nat := [0, 9, 2, 1]
def L.ajib : List Nat := [0, 9, 8, 1]
def L.ak : List Nat := [0, 10]
def L.akcd : List Nat := [0, 10, 2, 3]
def L.akcj : List Nat := [0, 10, 2, 9]
def L.akdc : List Nat := [0, 10, 3, 2]
def L.akic : List Nat := [0, 10, 8, 2]
def L.akij : List Nat := [0, 10, 8, 9]
def L.akjc : List Nat := [0, 10, 9, 2]
def L.al : List Nat := [0, 11]
def L.alde : List Nat := [0, 11, 3, 4]
def L.aldj : List Nat := [0, 11, 3, 9]
def L.aldk : List Nat := [0, 11, 3, 10]
def L.aled : List Nat := [0, 11, 4, 3]
def L.alid : List Nat := [0, 11, 8, 3]
def L.alij : List Nat := [0, 11, 8, 9]
def L.alik : List Nat := [0, 11, 8, 10]
def L.aljd : List Nat := [0, 11, 9, 3]
def L.aljk : List Nat := [0, 11, 9, 10]
def L.alkd : List Nat := [0, 11, 10, 3]
def L.am : List Nat := [0, 12]
def L.amej : List Nat := [0, 12, 4, 9]
def L.amek : List Nat := [0, 12, 4, 10]
def L.amel : List Nat := [0, 12, 4, 11]
def L.amie : List Nat := [0, 12, 8, 4]
def L.amij : List Nat := [0, 12, 8, 9]
def L.amil : List Nat := [0, 12, 8, 11]
def L.amje : List Nat := [0, 12, 9, 4]
def L.amjk : List Nat := [0, 12, 9, 10]
def L.amjl : List Nat := [0, 12, 9, 11]
def L.amke : List Nat := [0, 12, 10, 4]
def L.amkl : List Nat := [0, 12, 10, 11]
def L.amle : List Nat := [0, 12, 11, 4]
def L.amlj : List Nat := [0, 12, 11, 9]
def L.amlk : List Nat := [0, 12, 11, 10]
def L.ba : List Nat := [1, 0]
def L.bacdijkl : List Nat := [1, 0, 2, 3, 8, 9, 10, 11]
def L.bacdijlk : List Nat := [1, 0, 2, 3, 8, 9, 11, 10]
def L.bacdikjl : List Nat := [1, 0, 2, 3, 8, 10, 9, 11]
def L.bacdilkj : List Nat := [1, 0, 2, 3, 8, 11, 10, 9]
def L.bacdjikl : List Nat := [1, 0, 2, 3, 9, 8, 10, 11]
def L.bacdkjil : List Nat := [1, 0, 2, 3, 10, 9, 8, 11]
def L.bacdljki : List Nat := [1, 0, 2, 3, 11, 9, 10, 8]
def L.bacijk : List Nat := [1, 0, 2, 8, 9, 10]
def L.bacijm : List Nat := [1, 0, 2, 8, 9, 12]
def L.bacikj : List Nat := [1, 0, 2, 8, 10, 9]
def L.bacikl : List Nat := [1, 0, 2, 8, 10, 11]
def L.bacikm : List Nat := [1, 0, 2, 8, 10, 12]
def L.bacilk : List Nat := [1, 0, 2, 8, 11, 10]
def L.bacimk : List Nat := [1, 0, 2, 8, 12, 10]
def L.bacjik : List Nat := [1, 0, 2, 9, 8, 10]
def L.backji : List Nat := [1, 0, 2, 10, 9, 8]
def L.backml : List Nat := [1, 0, 2, 10, 12, 11]
def L.bacmlk : List Nat := [1, 0, 2, 12, 11, 10]
def L.badijk : List Nat := [1, 0, 3, 8, 9, 10]
def L.badijl : List Nat := [1, 0, 3, 8, 9, 11]
def L.badijm : List Nat := [1, 0, 3, 8, 9, 12]
def L.badikl : List Nat := [1, 0, 3, 8, 10, 11]
def L.badilk : List Nat := [1, 0, 3, 8, 11, 10]
def L.badimk : List Nat := [1, 0, 3, 8, 12, 10]
def L.badjkl : List Nat := [1, 0, 3, 9, 10, 11]
def L.badjkm : List Nat := [1, 0, 3, 9, 10, 12]
def L.badjlk : List Nat := [1, 0, 3, 9, 11, 10]
def L.badjmk : List Nat := [1, 0, 3, 9, 12, 10]
def L.baedijkl : List Nat := [1, 0, 4, 3, 8, 9, 10, 11]
def L.baedijkm : List Nat := [1, 0, 4, 3, 8, 9, 10, 12]
def L.baedijlm : List Nat := [1, 0, 4, 3, 8, 9, 11, 12]
def L.baediklm : List Nat := [1, 0, 4, 3, 8, 10, 11, 12]
def L.baedimlk : List Nat := [1, 0, 4, 3, 8, 12, 11, 10]
def L.baef : List Nat := [1, 0, 4, 5]
def L.baeijk : List Nat := [1, 0, 4, 8, 9, 10]
def L.baeijl : List Nat := [1, 0, 4, 8, 9, 11]
def L.baeijm : List Nat := [1, 0, 4, 8, 9, 12]
def L.baeikl : List Nat := [1, 0, 4, 8, 10, 11]
def L.baeilk : List Nat := [1, 0, 4, 8, 11, 10]
def L.baeilm : List Nat := [1, 0, 4, 8, 11, 12]
def L.baeimk : List Nat := [1, 0, 4, 8, 12, 10]
def L.baeiml : List Nat := [1, 0, 4, 8, 12, 11]
def L.baejkl : List Nat := [1, 0, 4, 9, 10, 11]
def L.baejkm : List Nat := [1, 0, 4, 9, 10, 12]
def L.baejlk : List Nat := [1, 0, 4, 9, 11, 10]
def L.baejmk : List Nat := [1, 0, 4, 9, 12, 10]
def L.baeklm : List Nat := [1, 0, 4, 10, 11, 12]
def L.baekml : List Nat := [1, 0, 4, 10, 12, 11]
def L.bafdijkl : List Nat := [1, 0, 5, 3, 8, 9, 10, 11]
def L.bafdijkn : List Nat := [1, 0, 5, 3, 8, 9, 10, 13]
def L.bafdijln : List Nat := [1, 0, 5, 3, 8, 9, 11, 13]
def L.bafdijnm : List Nat := [1, 0, 5, 3, 8, 9, 13, 12]
def L.bafdikln : List Nat := [1, 0, 5, 3, 8, 10, 11, 13]
def L.bafdimnk : List Nat := [1, 0, 5, 3, 8, 12, 13, 10]
def L.bafdimnl : List Nat := [1, 0, 5, 3, 8, 12, 13, 11]
def L.bafdinkm : List Nat := [1, 0, 5, 3, 8, 13, 10, 12]
def L.bafdinlk : List Nat := [1, 0, 5, 3, 8, 13, 11, 10]
def L.bafdinlm : List Nat := [1, 0, 5, 3, 8, 13, 11, 12]
def L.bafdjknm : List Nat := [1, 0, 5, 3, 9, 10, 13, 12]
def L.bafdjmnk : List Nat := [1, 0, 5, 3, 9, 12, 13, 10]
def L.bafdjmnl : List Nat := [1, 0, 5, 3, 9, 12, 13, 11]
def L.bafdjnkm : List Nat := [1, 0, 5, 3, 9, 13, 10, 12]
def L.bafdjnlm : List Nat := [1, 0, 5, 3, 9, 13, 11, 12]
def L.bafe : List Nat := [1, 0, 5, 4]
def L.baij : List Nat := [1, 0, 8, 9]
def L.baim : List Nat := [1, 0, 8, 12]
def L.bain : List Nat := [1, 0, 8, 13]
def L.baji : List Nat := [1, 0, 9, 8]
def L.bajk : List Nat := [1, 0, 9, 10]
def L.bakj : List Nat := [1, 0, 10, 9]
def L.bakm : List Nat := [1, 0, 10, 12]
def L.bakn : List Nat := [1, 0, 10, 13]
def L.bami : List Nat := [1, 0, 12, 8]
def L.bamk : List Nat := [1, 0, 12, 10]
def L.bamn : List Nat := [1, 0, 12, 13]
def L.bani : List Nat := [1, 0, 13, 8]
def L.bank : List Nat := [1, 0, 13, 10]
def L.bbaa : List Nat := [1, 1, 0, 0]
def L.bbii : List Nat := [1, 1, 8, 8]
def L.bbjj : List Nat := [1, 1, 9, 9]
def L.bc : List Nat := [1, 2]
def L.bcaikj : List Nat := [1, 2, 0, 8, 10, 9]
def L.bcailk : List Nat := [1, 2, 0, 8, 11, 10]
def L.bcajki : List Nat := [1, 2, 0, 9, 10, 8]
def L.bcakij : List Nat := [1, 2, 0, 10, 8, 9]
def L.bcakli : List Nat := [1, 2, 0, 10, 11, 8]
def L.bcalik : List Nat := [1, 2, 0, 11, 8, 10]
def L.bcde : List Nat := [1, 2, 3, 4]
def L.bcdf : List Nat := [1, 2, 3, 5]
def L.bcdi : List Nat := [1, 2, 3, 8]
def L.bcdijm : List Nat := [1, 2, 3, 8, 9, 12]
def L.bcdikm : List Nat := [1, 2, 3, 8, 10, 12]
def L.bcdilm : List Nat := [1, 2, 3, 8, 11, 12]
def L.bcdimk : List Nat := [1, 2, 3, 8, 12, 10]
def L.bcdiml : List Nat := [1, 2, 3, 8, 12, 11]
def L.bcdjkm : List Nat := [1, 2, 3, 9, 10, 12]
def L.bcdjml : List Nat := [1, 2, 3, 9, 12, 11]
def L.bcdk : List Nat := [1, 2, 3, 10]
def L.bcdklm : List Nat := [1, 2, 3, 10, 11, 12]
def L.bcdkml : List Nat := [1, 2, 3, 10, 12, 11]
def L.bcdmlk : List Nat := [1, 2, 3, 12, 11, 10]
def L.bced : List Nat := [1, 2, 4, 3]
def L.bcef : List Nat := [1, 2, 4, 5]
def L.bcefijln : List Nat := [1, 2, 4, 5, 8, 9, 11, 13]
def L.bcefikln : List Nat := [1, 2, 4, 5, 8, 10, 11, 13]
def L.bceijk : List Nat := [1, 2, 4, 8, 9, 10]
def L.bceikl : List Nat := [1, 2, 4, 8, 10, 11]
def L.bceilk : List Nat := [1, 2, 4, 8, 11, 10]
def L.bcej : List Nat := [1, 2, 4, 9]
def L.bcek : List Nat := [1, 2, 4, 10]
def L.bcel : List Nat := [1, 2, 4, 11]
def L.bcfd : List Nat := [1, 2, 5, 3]
def L.bcfe : List Nat := [1, 2, 5, 4]
def L.bcid : List Nat := [1, 2, 8, 3]
def L.bcij : List Nat := [1, 2, 8, 9]
def L.bcik : List Nat := [1, 2, 8, 10]
def L.bcil : List Nat := [1, 2, 8, 11]
def L.bcim : List Nat := [1, 2, 8, 12]
def L.bcin : List Nat := [1, 2, 8, 13]
def L.bcja : List Nat := [1, 2, 9, 0]
def L.bcjd : List Nat := [1, 2, 9, 3]
def L.bcje : List Nat := [1, 2, 9, 4]
def L.bcji : List Nat := [1, 2, 9, 8]
def L.bcjk : List Nat := [1, 2, 9, 10]
def L.bcjl : List Nat := [1, 2, 9, 11]
def L.bcjm : List Nat := [1, 2, 9, 12]
def L.bcjn : List Nat := [1, 2, 9, 13]
def L.bckd : List Nat := [1, 2, 10, 3]
def L.bcki : List Nat := [1, 2, 10, 8]
def L.bckl : List Nat := [1, 2, 10, 11]
def L.bckm : List Nat := [1, 2, 10, 12]
def L.bckn : List Nat := [1, 2, 10, 13]
def L.bclk : List Nat := [1, 2, 11, 10]
def L.bclm : List Nat := [1, 2, 11, 12]
def L.bcln : List Nat := [1, 2, 11, 13]
def L.bcma : List Nat := [1, 2, 12, 0]
def L.bcmd : List Nat := [1, 2, 12, 3]
def L.bcmk : List Nat := [1, 2, 12, 10]
def L.bcml : List Nat := [1, 2, 12, 11]
def L.bcmn : List Nat := [1, 2, 12, 13]
def L.bcnk : List Nat := [1, 2, 13, 10]
def L.bcnl : List Nat := [1, 2, 13, 11]
def L.bcnm : List Nat := [1, 2, 13, 12]
def L.bd : List Nat := [1, 3]
def L.bdacijkl : List Nat := [1, 3, 0, 2, 8, 9, 10, 11]
def L.bdacijlk : List Nat := [1, 3, 0, 2, 8, 9, 11, 10]
def L.bdcaijlk : List Nat := [1, 3, 2, 0, 8, 9, 11, 10]
def L.bdcaiklj : List Nat := [1, 3, 2, 0, 8, 10, 11, 9]
def L.bdcailjk : List Nat := [1, 3, 2, 0, 8, 11, 9, 10]
def L.bdcajilk : List Nat := [1, 3, 2, 0, 9, 8, 11, 10]
def L.bdcakjli : List Nat := [1, 3, 2, 0, 10, 9, 11, 8]
def L.bdcaljik : List Nat := [1, 3, 2, 0, 11, 9, 8, 10]
def L.bdcijk : List Nat := [1, 3, 2, 8, 9, 10]
def L.bdcijl : List Nat := [1, 3, 2, 8, 9, 11]
def L.bdcikl : List Nat := [1, 3, 2, 8, 10, 11]
def L.bdcikm : List Nat := [1, 3, 2, 8, 10, 12]
def L.bdcjkl : List Nat := [1, 3, 2, 9, 10, 11]
def L.bdcjkm : List Nat := [1, 3, 2, 9, 10, 12]
def L.bdef : List Nat := [1, 3, 4, 5]
def L.bdej : List Nat := [1, 3, 4, 9]
def L.bdel : List Nat := [1, 3, 4, 11]
def L.bdfe : List Nat := [1, 3, 5, 4]
def L.bdik : List Nat := [1, 3, 8, 10]
def L.bdil : List Nat := [1, 3, 8, 11]
def L.bdim : List Nat := [1, 3, 8, 12]
def L.bdin : List Nat := [1, 3, 8, 13]
def L.bdjk : List Nat := [1, 3, 9, 10]
def L.bdjl : List Nat := [1, 3, 9, 11]
def L.bdjm : List Nat := [1, 3, 9, 12]
def L.bdjn : List Nat := [1, 3, 9, 13]
def L.bdkl : List Nat := [1, 3, 10, 11]
def L.bdkm : List Nat := [1, 3, 10, 12]
def L.bdlk : List Nat := [1, 3, 11, 10]
def L.bdlm : List Nat := [1, 3, 11, 12]
def L.bdmi : List Nat := [1, 3, 12, 8]
def L.bdmj : List Nat := [1, 3, 12, 9]
def L.bdmk : List Nat := [1, 3, 12, 10]
def L.bdml : List Nat := [1, 3, 12, 11]
def L.bdmn : List Nat := [1, 3, 12, 13]
def L.bdnk : List Nat := [1, 3, 13, 10]
def L.bdnl : List Nat := [1, 3, 13, 11]
def L.bdnm : List Nat := [1, 3, 13, 12]
def L.be : List Nat := [1, 4]
def L.becdiklm : List Nat := [1, 4, 2, 3, 8, 10, 11, 12]
def L.becikl : List Nat := [1, 4, 2, 8, 10, 11]
def L.becikm : List Nat := [1, 4, 2, 8, 10, 12]
def L.beciml : List Nat := [1, 4, 2, 8, 12, 11]
def L.becjkl : List Nat := [1, 4, 2, 9, 10, 11]
def L.becjkm : List Nat := [1, 4, 2, 9, 10, 12]
def L.beclmk : List Nat := [1, 4, 2, 11, 12, 10]
def L.becmkl : List Nat := [1, 4, 2, 12, 10, 11]
def L.bedijk : List Nat := [1, 4, 3, 8, 9, 10]
def L.bedijm : List Nat := [1, 4, 3, 8, 9, 12]
def L.bedikl : List Nat := [1, 4, 3, 8, 10, 11]
def L.bedikm : List Nat := [1, 4, 3, 8, 10, 12]
def L.bedimk : List Nat := [1, 4, 3, 8, 12, 10]
def L.bedjkm : List Nat := [1, 4, 3, 9, 10, 12]
def L.bedjmk : List Nat := [1, 4, 3, 9, 12, 10]
def L.beij : List Nat := [1, 4, 8, 9]
def L.beik : List Nat := [1, 4, 8, 10]
def L.beil : List Nat := [1, 4, 8, 11]
def L.beim : List Nat := [1, 4, 8, 12]
def L.beji : List Nat := [1, 4, 9, 8]
def L.bejk : List Nat := [1, 4, 9, 10]
def L.bejl : List Nat := [1, 4, 9, 11]
def L.bejm : List Nat := [1, 4, 9, 12]
def L.bekj : List Nat := [1, 4, 10, 9]
def L.bekl : List Nat := [1, 4, 10, 11]
def L.bekm : List Nat := [1, 4, 10, 12]
def L.bekn : List Nat := [1, 4, 10, 13]
def L.beli : List Nat := [1, 4, 11, 8]
def L.belj : List Nat := [1, 4, 11, 9]
def L.belk : List Nat := [1, 4, 11, 10]
def L.belm : List Nat := [1, 4, 11, 12]
def L.bemk : List Nat := [1, 4, 12, 10]
def L.beml : List Nat := [1, 4, 12, 11]
def L.benk : List Nat := [1, 4, 13, 10]
def L.bfaeijkl : List Nat := [1, 5, 0, 4, 8, 9, 10, 11]
def L.bfaeijkn : List Nat := [1, 5, 0, 4, 8, 9, 10, 13]
def L.bfaeijnk : List Nat := [1, 5, 0, 4, 8, 9, 13, 10]
def L.bfaeijnl : List Nat := [1, 5, 0, 4, 8, 9, 13, 11]
def L.bfaeiknl : List Nat := [1, 5, 0, 4, 8, 10, 13, 11]
def L.bfcdikln : List Nat := [1, 5, 2, 3, 8, 10, 11, 13]
def L.bfcdiknm : List Nat := [1, 5, 2, 3, 8, 10, 13, 12]
def L.bfcdilnm : List Nat := [1, 5, 2, 3, 8, 11, 13, 12]
def L.bfcdjknm : List Nat := [1, 5, 2, 3, 9, 10, 13, 12]
def L.bfcdmlnk : List Nat := [1, 5, 2, 3, 12, 11, 13, 10]
def L.bfcdnlkm : List Nat := [1, 5, 2, 3, 13, 11, 10, 12]
def L.bfecijkl : List Nat := [1, 5, 4, 2, 8, 9, 10, 11]
def L.bfecijkn : List Nat := [1, 5, 4, 2, 8, 9, 10, 13]
def L.bfecikln : List Nat := [1, 5, 4, 2, 8, 10, 11, 13]
def L.bfecinlk : List Nat := [1, 5, 4, 2, 8, 13, 11, 10]
def L.bfedijkl : List Nat := [1, 5, 4, 3, 8, 9, 10, 11]
def L.bfedijkn : List Nat := [1, 5, 4, 3, 8, 9, 10, 13]
def L.bfedikln : List Nat := [1, 5, 4, 3, 8, 10, 11, 13]
def L.bfedinlk : List Nat := [1, 5, 4, 3, 8, 13, 11, 10]
def L.bfij : List Nat := [1, 5, 8, 9]
def L.bfik : List Nat := [1, 5, 8, 10]
def L.bfil : List Nat := [1, 5, 8, 11]
def L.bfim : List Nat := [1, 5, 8, 12]
def L.bfji : List Nat := [1, 5, 9, 8]
def L.bfjk : List Nat := [1, 5, 9, 10]
def L.bfjl : List Nat := [1, 5, 9, 11]
def L.bfjm : List Nat := [1, 5, 9, 12]
def L.bfjn : List Nat := [1, 5, 9, 13]
def L.bfkl : List Nat := [1, 5, 10, 11]
def L.bfkm : List Nat := [1, 5, 10, 12]
def L.bflk : List Nat := [1, 5, 11, 10]
def L.bflm : List Nat := [1, 5, 11, 12]
def L.bfmj : List Nat := [1, 5, 12, 9]
def L.bfmk : List Nat := [1, 5, 12, 10]
def L.bfml : List Nat := [1, 5, 12, 11]
def L.bfmn : List Nat := [1, 5, 12, 13]
def L.bfnj : List Nat := [1, 5, 13, 9]
def L.bi : List Nat := [1, 8]
def L.bj : List Nat := [1, 9]
def L.bk : List Nat := [1, 10]
def L.bkcd : List Nat := [1, 10, 2, 3]
def L.bkdc : List Nat := [1, 10, 3, 2]
def L.bl : List Nat := [1, 11]
def L.blde : List Nat := [1, 11, 3, 4]
def L.bldk : List Nat := [1, 11, 3, 10]
def L.bled : List Nat := [1, 11, 4, 3]
def L.blid : List Nat := [1, 11, 8, 3]
def L.bljd : List Nat := [1, 11, 9, 3]
def L.bm : List Nat := [1, 12]
def L.bmej : List Nat := [1, 12, 4, 9]
def L.bmek : List Nat := [1, 12, 4, 10]
def L.bmel : List Nat := [1, 12, 4, 11]
def L.bmie : List Nat := [1, 12, 8, 4]
def L.bmje : List Nat := [1, 12, 9, 4]
def L.bmke : List Nat := [1, 12, 10, 4]
def L.bmle : List Nat := [1, 12, 11, 4]
def L.bpcd : List Nat := [1, 15, 2, 3]
def L.bpmd : List Nat := [1, 15, 12, 3]
def L.bpmn : List Nat := [1, 15, 12, 13]
def L.bpnd : List Nat := [1, 15, 13, 3]
def L.ca : List Nat := [2, 0]
def L.cabdijkl : List Nat := [2, 0, 1, 3, 8, 9, 10, 11]
def L.cabdijlk : List Nat := [2, 0, 1, 3, 8, 9, 11, 10]
def L.cabdiklj : List Nat := [2, 0, 1, 3, 8, 10, 11, 9]
def L.cabdiljk : List Nat := [2, 0, 1, 3, 8, 11, 9, 10]
def L.cabdkjli : List Nat := [2, 0, 1, 3, 10, 9, 11, 8]
def L.cabdljik : List Nat := [2, 0, 1, 3, 11, 9, 8, 10]
def L.cabeijkl : List Nat := [2, 0, 1, 4, 8, 9, 10, 11]
def L.cabeijkm : List Nat := [2, 0, 1, 4, 8, 9, 10, 12]
def L.cabeijml : List Nat := [2, 0, 1, 4, 8, 9, 12, 11]
def L.cabeikml : List Nat := [2, 0, 1, 4, 8, 10, 12, 11]
def L.cabfijkl : List Nat := [2, 0, 1, 5, 8, 9, 10, 11]
def L.cabfijkn : List Nat := [2, 0, 1, 5, 8, 9, 10, 13]
def L.cabfijmn : List Nat := [2, 0, 1, 5, 8, 9, 12, 13]
def L.cabfijnl : List Nat := [2, 0, 1, 5, 8, 9, 13, 11]
def L.cabfijnm : List Nat := [2, 0, 1, 5, 8, 9, 13, 12]
def L.cabfiknl : List Nat := [2, 0, 1, 5, 8, 10, 13, 11]
def L.cabfjkmn : List Nat := [2, 0, 1, 5, 9, 10, 12, 13]
def L.cabfjknm : List Nat := [2, 0, 1, 5, 9, 10, 13, 12]
def L.cabijk : List Nat := [2, 0, 1, 8, 9, 10]
def L.cabijm : List Nat := [2, 0, 1, 8, 9, 12]
def L.cabikj : List Nat := [2, 0, 1, 8, 10, 9]
def L.cabikl : List Nat := [2, 0, 1, 8, 10, 11]
def L.cabikm : List Nat := [2, 0, 1, 8, 10, 12]
def L.cabilk : List Nat := [2, 0, 1, 8, 11, 10]
def L.cabimj : List Nat := [2, 0, 1, 8, 12, 9]
def L.cabimk : List Nat := [2, 0, 1, 8, 12, 10]
def L.cabkim : List Nat := [2, 0, 1, 10, 8, 12]
def L.cabkji : List Nat := [2, 0, 1, 10, 9, 8]
def L.cabkli : List Nat := [2, 0, 1, 10, 11, 8]
def L.cabklj : List Nat := [2, 0, 1, 10, 11, 9]
def L.cabklm : List Nat := [2, 0, 1, 10, 11, 12]
def L.cabkml : List Nat := [2, 0, 1, 10, 12, 11]
def L.cablik : List Nat := [2, 0, 1, 11, 8, 10]
def L.cablkm : List Nat := [2, 0, 1, 11, 10, 12]
def L.cabmji : List Nat := [2, 0, 1, 12, 9, 8]
def L.cabmki : List Nat := [2, 0, 1, 12, 10, 8]
def L.cabmkj : List Nat := [2, 0, 1, 12, 10, 9]
def L.cabmlk : List Nat := [2, 0, 1, 12, 11, 10]
def L.cadbiklj : List Nat := [2, 0, 3, 1, 8, 10, 11, 9]
def L.cadbiljk : List Nat := [2, 0, 3, 1, 8, 11, 9, 10]
def L.cadijk : List Nat := [2, 0, 3, 8, 9, 10]
def L.cadikj : List Nat := [2, 0, 3, 8, 10, 9]
def L.cadilj : List Nat := [2, 0, 3, 8, 11, 9]
def L.cadkji : List Nat := [2, 0, 3, 10, 9, 8]
def L.caij : List Nat := [2, 0, 8, 9]
def L.caik : List Nat := [2, 0, 8, 10]
def L.cail : List Nat := [2, 0, 8, 11]
def L.caim : List Nat := [2, 0, 8, 12]
def L.cain : List Nat := [2, 0, 8, 13]
def L.cajk : List Nat := [2, 0, 9, 10]
def L.caki : List Nat := [2, 0, 10, 8]
def L.cakj : List Nat := [2, 0, 10, 9]
def L.cakl : List Nat := [2, 0, 10, 11]
def L.cakm : List Nat := [2, 0, 10, 12]
def L.cakn : List Nat := [2, 0, 10, 13]
def L.calk : List Nat := [2, 0, 11, 10]
def L.cami : List Nat := [2, 0, 12, 8]
def L.camk : List Nat := [2, 0, 12, 10]
def L.cani : List Nat := [2, 0, 13, 8]
def L.cank : List Nat := [2, 0, 13, 10]
def L.canm : List Nat := [2, 0, 13, 12]
def L.cbadijkl : List Nat := [2, 1, 0, 3, 8, 9, 10, 11]
def L.cbadijlk : List Nat := [2, 1, 0, 3, 8, 9, 11, 10]
def L.cbadikjl : List Nat := [2, 1, 0, 3, 8, 10, 9, 11]
def L.cbadjikl : List Nat := [2, 1, 0, 3, 9, 8, 10, 11]
def L.cbadkjil : List Nat := [2, 1, 0, 3, 10, 9, 8, 11]
def L.cbaijk : List Nat := [2, 1, 0, 8, 9, 10]
def L.cbaikj : List Nat := [2, 1, 0, 8, 10, 9]
def L.cbaikl : List Nat := [2, 1, 0, 8, 10, 11]
def L.cbailk : List Nat := [2, 1, 0, 8, 11, 10]
def L.cbajki : List Nat := [2, 1, 0, 9, 10, 8]
def L.cbakij : List Nat := [2, 1, 0, 10, 8, 9]
def L.cbakli : List Nat := [2, 1, 0, 10, 11, 8]
def L.cbalik : List Nat := [2, 1, 0, 11, 8, 10]
def L.cbdaiklj : List Nat := [2, 1, 3, 0, 8, 10, 11, 9]
def L.cbdailjk : List Nat := [2, 1, 3, 0, 8, 11, 9, 10]
def L.cbdakjli : List Nat := [2, 1, 3, 0, 10, 9, 11, 8]
def L.cbdaljik : List Nat := [2, 1, 3, 0, 11, 9, 8, 10]
def L.cbdijk : List Nat := [2, 1, 3, 8, 9, 10]
def L.cbdijl : List Nat := [2, 1, 3, 8, 9, 11]
def L.cbdijm : List Nat := [2, 1, 3, 8, 9, 12]
def L.cbdjkl : List Nat := [2, 1, 3, 9, 10, 11]
def L.cbdjkm : List Nat := [2, 1, 3, 9, 10, 12]
def L.cbedijlm : List Nat := [2, 1, 4, 3, 8, 9, 11, 12]
def L.cbediklm : List Nat := [2, 1, 4, 3, 8, 10, 11, 12]
def L.cbeijl : List Nat := [2, 1, 4, 8, 9, 11]
def L.cbeijm : List Nat := [2, 1, 4, 8, 9, 12]
def L.cbeikl : List Nat := [2, 1, 4, 8, 10, 11]
def L.cbeilm : List Nat := [2, 1, 4, 8, 11, 12]
def L.cbeiml : List Nat := [2, 1, 4, 8, 12, 11]
def L.cbejkl : List Nat := [2, 1, 4, 9, 10, 11]
def L.cbejkm : List Nat := [2, 1, 4, 9, 10, 12]
def L.cbeklm : List Nat := [2, 1, 4, 10, 11, 12]
def L.cbekml : List Nat := [2, 1, 4, 10, 12, 11]
def L.cbfdijln : List Nat := [2, 1, 5, 3, 8, 9, 11, 13]
def L.cbfdijnm : List Nat := [2, 1, 5, 3, 8, 9, 13, 12]
def L.cbfdikln : List Nat := [2, 1, 5, 3, 8, 10, 11, 13]
def L.cbfdimnl : List Nat := [2, 1, 5, 3, 8, 12, 13, 11]
def L.cbfdinlm : List Nat := [2, 1, 5, 3, 8, 13, 11, 12]
def L.cbfdjknm : List Nat := [2, 1, 5, 3, 9, 10, 13, 12]
def L.cbfdjmnl : List Nat := [2, 1, 5, 3, 9, 12, 13, 11]
def L.cbfdjnlm : List Nat := [2, 1, 5, 3, 9, 13, 11, 12]
def L.cbij : List Nat := [2, 1, 8, 9]
def L.cbik : List Nat := [2, 1, 8, 10]
def L.cbil : List Nat := [2, 1, 8, 11]
def L.cbim : List Nat := [2, 1, 8, 12]
def L.cbin : List Nat := [2, 1, 8, 13]
def L.cbji : List Nat := [2, 1, 9, 8]
def L.cbjk : List Nat := [2, 1, 9, 10]
def L.cbjl : List Nat := [2, 1, 9, 11]
def L.cbjm : List Nat := [2, 1, 9, 12]
def L.cbjn : List Nat := [2, 1, 9, 13]
def L.cbki : List Nat := [2, 1, 10, 8]
def L.cbkj : List Nat := [2, 1, 10, 9]
def L.cbkm : List Nat := [2, 1, 10, 12]
def L.cbkn : List Nat := [2, 1, 10, 13]
def L.cbli : List Nat := [2, 1, 11, 8]
def L.cblj : List Nat := [2, 1, 11, 9]
def L.cbmi : List Nat := [2, 1, 12, 8]
def L.cbmj : List Nat := [2, 1, 12, 9]
def L.cbmk : List Nat := [2, 1, 12, 10]
def L.cbmn : List Nat := [2, 1, 12, 13]
def L.cbni : List Nat := [2, 1, 13, 8]
def L.cbnj : List Nat := [2, 1, 13, 9]
def L.cbnk : List Nat := [2, 1, 13, 10]
def L.cbnm : List Nat := [2, 1, 13, 12]
def L.cd : List Nat := [2, 3]
def L.cdab : List Nat := [2, 3, 0, 1]
def L.cdabijlk : List Nat := [2, 3, 0, 1, 8, 9, 11, 10]
def L.cdabiklj : List Nat := [2, 3, 0, 1, 8, 10, 11, 9]
def L.cdabkjli : List Nat := [2, 3, 0, 1, 10, 9, 11, 8]
def L.cdabljik : List Nat := [2, 3, 0, 1, 11, 9, 8, 10]
def L.cdablkij : List Nat := [2, 3, 0, 1, 11, 10, 8, 9]
def L.cdaijk : List Nat := [2, 3, 0, 8, 9, 10]
def L.cdaikj : List Nat := [2, 3, 0, 8, 10, 9]
def L.cdajik : List Nat := [2, 3, 0, 9, 8, 10]
def L.cdakji : List Nat := [2, 3, 0, 10, 9, 8]
def L.cdbaijlk : List Nat := [2, 3, 1, 0, 8, 9, 11, 10]
def L.cdbaiklj : List Nat := [2, 3, 1, 0, 8, 10, 11, 9]
def L.cdbakjli : List Nat := [2, 3, 1, 0, 10, 9, 11, 8]
def L.cdbaljik : List Nat := [2, 3, 1, 0, 11, 9, 8, 10]
def L.cdbalkij : List Nat := [2, 3, 1, 0, 11, 10, 8, 9]
def L.cdbijk : List Nat := [2, 3, 1, 8, 9, 10]
def L.cdbijl : List Nat := [2, 3, 1, 8, 9, 11]
def L.cdbijm : List Nat := [2, 3, 1, 8, 9, 12]
def L.cdbikj : List Nat := [2, 3, 1, 8, 10, 9]
def L.cdbikm : List Nat := [2, 3, 1, 8, 10, 12]
def L.cdbilj : List Nat := [2, 3, 1, 8, 11, 9]
def L.cdbkim : List Nat := [2, 3, 1, 10, 8, 12]
def L.cdbkji : List Nat := [2, 3, 1, 10, 9, 8]
def L.cdbkjm : List Nat := [2, 3, 1, 10, 9, 12]
def L.cdbklm : List Nat := [2, 3, 1, 10, 11, 12]
def L.cdblji : List Nat := [2, 3, 1, 11, 9, 8]
def L.cdblkm : List Nat := [2, 3, 1, 11, 10, 12]
def L.cdbmji : List Nat := [2, 3, 1, 12, 9, 8]
def L.cdbmki : List Nat := [2, 3, 1, 12, 10, 8]
def L.cdbmkj : List Nat := [2, 3, 1, 12, 10, 9]
def L.cdef : List Nat := [2, 3, 4, 5]
def L.cdeijk : List Nat := [2, 3, 4, 8, 9, 10]
def L.cdeikj : List Nat := [2, 3, 4, 8, 10, 9]
def L.cdej : List Nat := [2, 3, 4, 9]
def L.cdekil : List Nat := [2, 3, 4, 10, 8, 11]
def L.cdekji : List Nat := [2, 3, 4, 10, 9, 8]
def L.cdekjl : List Nat := [2, 3, 4, 10, 9, 11]
def L.cdel : List Nat := [2, 3, 4, 11]
def L.cdelki : List Nat := [2, 3, 4, 11, 10, 8]
def L.cdelkj : List Nat := [2, 3, 4, 11, 10, 9]
def L.cdfe : List Nat := [2, 3, 5, 4]
def L.cdie : List Nat := [2, 3, 8, 4]
def L.cdij : List Nat := [2, 3, 8, 9]
def L.cdik : List Nat := [2, 3, 8, 10]
def L.cdil : List Nat := [2, 3, 8, 11]
def L.cdim : List Nat := [2, 3, 8, 12]
def L.cdin : List Nat := [2, 3, 8, 13]
def L.cdje : List Nat := [2, 3, 9, 4]
def L.cdjk : List Nat := [2, 3, 9, 10]
def L.cdjl : List Nat := [2, 3, 9, 11]
def L.cdjm : List Nat := [2, 3, 9, 12]
def L.cdjn : List Nat := [2, 3, 9, 13]
def L.cdkb : List Nat := [2, 3, 10, 1]
def L.cdke : List Nat := [2, 3, 10, 4]
def L.cdkj : List Nat := [2, 3, 10, 9]
def L.cdkl : List Nat := [2, 3, 10, 11]
def L.cdkm : List Nat := [2, 3, 10, 12]
def L.cdkn : List Nat := [2, 3, 10, 13]
def L.cdle : List Nat := [2, 3, 11, 4]
def L.cdlm : List Nat := [2, 3, 11, 12]
def L.cdln : List Nat := [2, 3, 11, 13]
def L.cdmb : List Nat := [2, 3, 12, 1]
def L.cdme : List Nat := [2, 3, 12, 4]
def L.cdmi : List Nat := [2, 3, 12, 8]
def L.cdmj : List Nat := [2, 3, 12, 9]
def L.cdmk : List Nat := [2, 3, 12, 10]
def L.cdml : List Nat := [2, 3, 12, 11]
def L.cdmn : List Nat := [2, 3, 12, 13]
def L.cdni : List Nat := [2, 3, 13, 8]
def L.cdnj : List Nat := [2, 3, 13, 9]
def L.cdnk : List Nat := [2, 3, 13, 10]
def L.cdnl : List Nat := [2, 3, 13, 11]
def L.cdnm : List Nat := [2, 3, 13, 12]
def L.ce : List Nat := [2, 4]
def L.cebf : List Nat := [2, 4, 1, 5]
def L.cebijk : List Nat := [2, 4, 1, 8, 9, 10]
def L.cebkil : List Nat := [2, 4, 1, 10, 8, 11]
def L.cebkji : List Nat := [2, 4, 1, 10, 9, 8]
def L.cebkjl : List Nat := [2, 4, 1, 10, 9, 11]
def L.ceblki : List Nat := [2, 4, 1, 11, 10, 8]
def L.ceblkj : List Nat := [2, 4, 1, 11, 10, 9]
def L.cedijm : List Nat := [2, 4, 3, 8, 9, 12]
def L.cedjkm : List Nat := [2, 4, 3, 9, 10, 12]
def L.ceij : List Nat := [2, 4, 8, 9]
def L.ceik : List Nat := [2, 4, 8, 10]
def L.ceil : List Nat := [2, 4, 8, 11]
def L.ceim : List Nat := [2, 4, 8, 12]
def L.ceji : List Nat := [2, 4, 9, 8]
def L.cejk : List Nat := [2, 4, 9, 10]
def L.cejl : List Nat := [2, 4, 9, 11]
def L.cejm : List Nat := [2, 4, 9, 12]
def L.cekj : List Nat := [2, 4, 10, 9]
def L.cekl : List Nat := [2, 4, 10, 11]
def L.cekm : List Nat := [2, 4, 10, 12]
def L.cekn : List Nat := [2, 4, 10, 13]
def L.celi : List Nat := [2, 4, 11, 8]
def L.celj : List Nat := [2, 4, 11, 9]
def L.celk : List Nat := [2, 4, 11, 10]
def L.celm : List Nat := [2, 4, 11, 12]
def L.ceml : List Nat := [2, 4, 12, 11]
def L.cemn : List Nat := [2, 4, 12, 13]
def L.cenm : List Nat := [2, 4, 13, 12]
def L.cfbeijkl : List Nat := [2, 5, 1, 4, 8, 9, 10, 11]
def L.cfbeijkn : List Nat := [2, 5, 1, 4, 8, 9, 10, 13]
def L.cfbeijnl : List Nat := [2, 5, 1, 4, 8, 9, 13, 11]
def L.cfbeikln : List Nat := [2, 5, 1, 4, 8, 10, 11, 13]
def L.cfbeiknl : List Nat := [2, 5, 1, 4, 8, 10, 13, 11]
def L.cfedijln : List Nat := [2, 5, 4, 3, 8, 9, 11, 13]
def L.cfedikln : List Nat := [2, 5, 4, 3, 8, 10, 11, 13]
def L.cfij : List Nat := [2, 5, 8, 9]
def L.cfik : List Nat := [2, 5, 8, 10]
def L.cfil : List Nat := [2, 5, 8, 11]
def L.cfim : List Nat := [2, 5, 8, 12]
def L.cfji : List Nat := [2, 5, 9, 8]
def L.cfjk : List Nat := [2, 5, 9, 10]
def L.cfjl : List Nat := [2, 5, 9, 11]
def L.cfjm : List Nat := [2, 5, 9, 12]
def L.cfkb : List Nat := [2, 5, 10, 1]
def L.cfkd : List Nat := [2, 5, 10, 3]
def L.cfki : List Nat := [2, 5, 10, 8]
def L.cfkj : List Nat := [2, 5, 10, 9]
def L.cfkl : List Nat := [2, 5, 10, 11]
def L.cfkm : List Nat := [2, 5, 10, 12]
def L.cflb : List Nat := [2, 5, 11, 1]
def L.cfld : List Nat := [2, 5, 11, 3]
def L.cfli : List Nat := [2, 5, 11, 8]
def L.cflj : List Nat := [2, 5, 11, 9]
def L.cflk : List Nat := [2, 5, 11, 10]
def L.cflm : List Nat := [2, 5, 11, 12]
def L.cfln : List Nat := [2, 5, 11, 13]
def L.cfmb : List Nat := [2, 5, 12, 1]
def L.cfmd : List Nat := [2, 5, 12, 3]
def L.cfmk : List Nat := [2, 5, 12, 10]
def L.cfml : List Nat := [2, 5, 12, 11]
def L.cfmn : List Nat := [2, 5, 12, 13]
def L.cfnl : List Nat := [2, 5, 13, 11]
def L.ci : List Nat := [2, 8]
def L.cj : List Nat := [2, 9]
def L.ck : List Nat := [2, 10]
def L.cl : List Nat := [2, 11]
def L.clde : List Nat := [2, 11, 3, 4]
def L.cled : List Nat := [2, 11, 4, 3]
def L.clid : List Nat := [2, 11, 8, 3]
def L.clkd : List Nat := [2, 11, 10, 3]
def L.cm : List Nat := [2, 12]
def L.cmel : List Nat := [2, 12, 4, 11]
def L.cmie : List Nat := [2, 12, 8, 4]
def L.cmil : List Nat := [2, 12, 8, 11]
def L.cmje : List Nat := [2, 12, 9, 4]
def L.cmke : List Nat := [2, 12, 10, 4]
def L.cmkl : List Nat := [2, 12, 10, 11]
def L.cmle : List Nat := [2, 12, 11, 4]
def L.cpnb : List Nat := [2, 15, 13, 1]
def L.da : List Nat := [3, 0]
def L.dabeijkm : List Nat := [3, 0, 1, 4, 8, 9, 10, 12]
def L.dabeiklm : List Nat := [3, 0, 1, 4, 8, 10, 11, 12]
def L.dabfijkn : List Nat := [3, 0, 1, 5, 8, 9, 10, 13]
def L.dabfijmn : List Nat := [3, 0, 1, 5, 8, 9, 12, 13]
def L.dabfijnm : List Nat := [3, 0, 1, 5, 8, 9, 13, 12]
def L.dabfikln : List Nat := [3, 0, 1, 5, 8, 10, 11, 13]
def L.dabfilmn : List Nat := [3, 0, 1, 5, 8, 11, 12, 13]
def L.dabfilnm : List Nat := [3, 0, 1, 5, 8, 11, 13, 12]
def L.dabfjkmn : List Nat := [3, 0, 1, 5, 9, 10, 12, 13]
def L.dabfjknm : List Nat := [3, 0, 1, 5, 9, 10, 13, 12]
def L.dabijk : List Nat := [3, 0, 1, 8, 9, 10]
def L.dabijl : List Nat := [3, 0, 1, 8, 9, 11]
def L.dabijm : List Nat := [3, 0, 1, 8, 9, 12]
def L.dabikl : List Nat := [3, 0, 1, 8, 10, 11]
def L.dabilj : List Nat := [3, 0, 1, 8, 11, 9]
def L.dabilk : List Nat := [3, 0, 1, 8, 11, 10]
def L.dabimj : List Nat := [3, 0, 1, 8, 12, 9]
def L.dabjkl : List Nat := [3, 0, 1, 9, 10, 11]
def L.dabjkm : List Nat := [3, 0, 1, 9, 10, 12]
def L.dabkli : List Nat := [3, 0, 1, 10, 11, 8]
def L.dabklj : List Nat := [3, 0, 1, 10, 11, 9]
def L.dablik : List Nat := [3, 0, 1, 11, 8, 10]
def L.dablji : List Nat := [3, 0, 1, 11, 9, 8]
def L.dablkj : List Nat := [3, 0, 1, 11, 10, 9]
def L.dabmji : List Nat := [3, 0, 1, 12, 9, 8]
def L.dabmkj : List Nat := [3, 0, 1, 12, 10, 9]
def L.dacikm : List Nat := [3, 0, 2, 8, 10, 12]
def L.dacilj : List Nat := [3, 0, 2, 8, 11, 9]
def L.dacimj : List Nat := [3, 0, 2, 8, 12, 9]
def L.dacimk : List Nat := [3, 0, 2, 8, 12, 10]
def L.dackml : List Nat := [3, 0, 2, 10, 12, 11]
def L.dacmkj : List Nat := [3, 0, 2, 12, 10, 9]
def L.dacmlk : List Nat := [3, 0, 2, 12, 11, 10]
def L.daef : List Nat := [3, 0, 4, 5]
def L.daei : List Nat := [3, 0, 4, 8]
def L.daeijk : List Nat := [3, 0, 4, 8, 9, 10]
def L.daeijm : List Nat := [3, 0, 4, 8, 9, 12]
def L.daeimj : List Nat := [3, 0, 4, 8, 12, 9]
def L.daeimk : List Nat := [3, 0, 4, 8, 12, 10]
def L.daej : List Nat := [3, 0, 4, 9]
def L.daejkm : List Nat := [3, 0, 4, 9, 10, 12]
def L.daejmk : List Nat := [3, 0, 4, 9, 12, 10]
def L.dael : List Nat := [3, 0, 4, 11]
def L.dafe : List Nat := [3, 0, 5, 4]
def L.daij : List Nat := [3, 0, 8, 9]
def L.daik : List Nat := [3, 0, 8, 10]
def L.dail : List Nat := [3, 0, 8, 11]
def L.daim : List Nat := [3, 0, 8, 12]
def L.dajk : List Nat := [3, 0, 9, 10]
def L.dajl : List Nat := [3, 0, 9, 11]
def L.dajm : List Nat := [3, 0, 9, 12]
def L.dakl : List Nat := [3, 0, 10, 11]
def L.dakm : List Nat := [3, 0, 10, 12]
def L.dale : List Nat := [3, 0, 11, 4]
def L.dali : List Nat := [3, 0, 11, 8]
def L.dalj : List Nat := [3, 0, 11, 9]
def L.dalk : List Nat := [3, 0, 11, 10]
def L.dalm : List Nat := [3, 0, 11, 12]
def L.dami : List Nat := [3, 0, 12, 8]
def L.damj : List Nat := [3, 0, 12, 9]
def L.damk : List Nat := [3, 0, 12, 10]
def L.daml : List Nat := [3, 0, 12, 11]
def L.dbceijkm : List Nat := [3, 1, 2, 4, 8, 9, 10, 12]
def L.dbceiklm : List Nat := [3, 1, 2, 4, 8, 10, 11, 12]
def L.dbcfijkn : List Nat := [3, 1, 2, 5, 8, 9, 10, 13]
def L.dbcfijmn : List Nat := [3, 1, 2, 5, 8, 9, 12, 13]
def L.dbcfijnm : List Nat := [3, 1, 2, 5, 8, 9, 13, 12]
def L.dbcfikln : List Nat := [3, 1, 2, 5, 8, 10, 11, 13]
def L.dbcfilmn : List Nat := [3, 1, 2, 5, 8, 11, 12, 13]
def L.dbcfilnm : List Nat := [3, 1, 2, 5, 8, 11, 13, 12]
def L.dbcfjkmn : List Nat := [3, 1, 2, 5, 9, 10, 12, 13]
def L.dbcfjknm : List Nat := [3, 1, 2, 5, 9, 10, 13, 12]
def L.dbcijk : List Nat := [3, 1, 2, 8, 9, 10]
def L.dbcijl : List Nat := [3, 1, 2, 8, 9, 11]
def L.dbcijm : List Nat := [3, 1, 2, 8, 9, 12]
def L.dbcikm : List Nat := [3, 1, 2, 8, 10, 12]
def L.dbcilk : List Nat := [3, 1, 2, 8, 11, 10]
def L.dbcimk : List Nat := [3, 1, 2, 8, 12, 10]
def L.dbcjkl : List Nat := [3, 1, 2, 9, 10, 11]
def L.dbcjkm : List Nat := [3, 1, 2, 9, 10, 12]
def L.dbcjlk : List Nat := [3, 1, 2, 9, 11, 10]
def L.dbcjmk : List Nat := [3, 1, 2, 9, 12, 10]
def L.dbckml : List Nat := [3, 1, 2, 10, 12, 11]
def L.dbclji : List Nat := [3, 1, 2, 11, 9, 8]
def L.dbclkj : List Nat := [3, 1, 2, 11, 10, 9]
def L.dbcmji : List Nat := [3, 1, 2, 12, 9, 8]
def L.dbcmkj : List Nat := [3, 1, 2, 12, 10, 9]
def L.dbcmlk : List Nat := [3, 1, 2, 12, 11, 10]
def L.dbef : List Nat := [3, 1, 4, 5]
def L.dbeijk : List Nat := [3, 1, 4, 8, 9, 10]
def L.dbeijm : List Nat := [3, 1, 4, 8, 9, 12]
def L.dbeimk : List Nat := [3, 1, 4, 8, 12, 10]
def L.dbej : List Nat := [3, 1, 4, 9]
def L.dbejmk : List Nat := [3, 1, 4, 9, 12, 10]
def L.dbel : List Nat := [3, 1, 4, 11]
def L.dbfe : List Nat := [3, 1, 5, 4]
def L.dbie : List Nat := [3, 1, 8, 4]
def L.dbij : List Nat := [3, 1, 8, 9]
def L.dbik : List Nat := [3, 1, 8, 10]
def L.dbil : List Nat := [3, 1, 8, 11]
def L.dbim : List Nat := [3, 1, 8, 12]
def L.dbjk : List Nat := [3, 1, 9, 10]
def L.dbjl : List Nat := [3, 1, 9, 11]
def L.dbjm : List Nat := [3, 1, 9, 12]
def L.dbki : List Nat := [3, 1, 10, 8]
def L.dbkj : List Nat := [3, 1, 10, 9]
def L.dbkl : List Nat := [3, 1, 10, 11]
def L.dbkm : List Nat := [3, 1, 10, 12]
def L.dble : List Nat := [3, 1, 11, 4]
def L.dbli : List Nat := [3, 1, 11, 8]
def L.dblj : List Nat := [3, 1, 11, 9]
def L.dblk : List Nat := [3, 1, 11, 10]
def L.dblm : List Nat := [3, 1, 11, 12]
def L.dbmi : List Nat := [3, 1, 12, 8]
def L.dbmj : List Nat := [3, 1, 12, 9]
def L.dbmk : List Nat := [3, 1, 12, 10]
def L.dbml : List Nat := [3, 1, 12, 11]
def L.dcabkjli : List Nat := [3, 2, 0, 1, 10, 9, 11, 8]
def L.dcabljik : List Nat := [3, 2, 0, 1, 11, 9, 8, 10]
def L.dcaijk : List Nat := [3, 2, 0, 8, 9, 10]
def L.dcaikm : List Nat := [3, 2, 0, 8, 10, 12]
def L.dcajik : List Nat := [3, 2, 0, 9, 8, 10]
def L.dcakji : List Nat := [3, 2, 0, 10, 9, 8]
def L.dcaklm : List Nat := [3, 2, 0, 10, 11, 12]
def L.dcbakjli : List Nat := [3, 2, 1, 0, 10, 9, 11, 8]
def L.dcbaljik : List Nat := [3, 2, 1, 0, 11, 9, 8, 10]
def L.dcbijk : List Nat := [3, 2, 1, 8, 9, 10]
def L.dcbijl : List Nat := [3, 2, 1, 8, 9, 11]
def L.dcbijm : List Nat := [3, 2, 1, 8, 9, 12]
def L.dcbikm : List Nat := [3, 2, 1, 8, 10, 12]
def L.dcbimj : List Nat := [3, 2, 1, 8, 12, 9]
def L.dcbjkm : List Nat := [3, 2, 1, 9, 10, 12]
def L.dcbkim : List Nat := [3, 2, 1, 10, 8, 12]
def L.dcbkji : List Nat := [3, 2, 1, 10, 9, 8]
def L.dcbkjm : List Nat := [3, 2, 1, 10, 9, 12]
def L.dcbklm : List Nat := [3, 2, 1, 10, 11, 12]
def L.dcblji : List Nat := [3, 2, 1, 11, 9, 8]
def L.dcblkm : List Nat := [3, 2, 1, 11, 10, 12]
def L.dcbmji : List Nat := [3, 2, 1, 12, 9, 8]
def L.dcbmki : List Nat := [3, 2, 1, 12, 10, 8]
def L.dcbmkj : List Nat := [3, 2, 1, 12, 10, 9]
def L.dcef : List Nat := [3, 2, 4, 5]
def L.dcei : List Nat := [3, 2, 4, 8]
def L.dceijm : List Nat := [3, 2, 4, 8, 9, 12]
def L.dcej : List Nat := [3, 2, 4, 9]
def L.dcejkm : List Nat := [3, 2, 4, 9, 10, 12]
def L.dcel : List Nat := [3, 2, 4, 11]
def L.dcfe : List Nat := [3, 2, 5, 4]
def L.dcie : List Nat := [3, 2, 8, 4]
def L.dcij : List Nat := [3, 2, 8, 9]
def L.dcik : List Nat := [3, 2, 8, 10]
def L.dcil : List Nat := [3, 2, 8, 11]
def L.dcim : List Nat := [3, 2, 8, 12]
def L.dcin : List Nat := [3, 2, 8, 13]
def L.dcje : List Nat := [3, 2, 9, 4]
def L.dcjk : List Nat := [3, 2, 9, 10]
def L.dcjl : List Nat := [3, 2, 9, 11]
def L.dcjm : List Nat := [3, 2, 9, 12]
def L.dcjn : List Nat := [3, 2, 9, 13]
def L.dckj : List Nat := [3, 2, 10, 9]
def L.dckl : List Nat := [3, 2, 10, 11]
def L.dckm : List Nat := [3, 2, 10, 12]
def L.dckn : List Nat := [3, 2, 10, 13]
def L.dcle : List Nat := [3, 2, 11, 4]
def L.dcli : List Nat := [3, 2, 11, 8]
def L.dclj : List Nat := [3, 2, 11, 9]
def L.dclk : List Nat := [3, 2, 11, 10]
def L.dclm : List Nat := [3, 2, 11, 12]
def L.dcmi : List Nat := [3, 2, 12, 8]
def L.dcmj : List Nat := [3, 2, 12, 9]
def L.dcmk : List Nat := [3, 2, 12, 10]
def L.dcml : List Nat := [3, 2, 12, 11]
def L.dcmn : List Nat := [3, 2, 12, 13]
def L.dcni : List Nat := [3, 2, 13, 8]
def L.dcnj : List Nat := [3, 2, 13, 9]
def L.dcnk : List Nat := [3, 2, 13, 10]
def L.dcnm : List Nat := [3, 2, 13, 12]
def L.de : List Nat := [3, 4]
def L.deaijk : List Nat := [3, 4, 0, 8, 9, 10]
def L.deaijm : List Nat := [3, 4, 0, 8, 9, 12]
def L.deajkm : List Nat := [3, 4, 0, 9, 10, 12]
def L.deamji : List Nat := [3, 4, 0, 12, 9, 8]
def L.deamkj : List Nat := [3, 4, 0, 12, 10, 9]
def L.debc : List Nat := [3, 4, 1, 2]
def L.debijk : List Nat := [3, 4, 1, 8, 9, 10]
def L.debijm : List Nat := [3, 4, 1, 8, 9, 12]
def L.decijk : List Nat := [3, 4, 2, 8, 9, 10]
def L.decijm : List Nat := [3, 4, 2, 8, 9, 12]
def L.decikm : List Nat := [3, 4, 2, 8, 10, 12]
def L.decimj : List Nat := [3, 4, 2, 8, 12, 9]
def L.decimk : List Nat := [3, 4, 2, 8, 12, 10]
def L.decjkm : List Nat := [3, 4, 2, 9, 10, 12]
def L.decjmk : List Nat := [3, 4, 2, 9, 12, 10]
def L.deckil : List Nat := [3, 4, 2, 10, 8, 11]
def L.deckji : List Nat := [3, 4, 2, 10, 9, 8]
def L.deckjl : List Nat := [3, 4, 2, 10, 9, 11]
def L.declki : List Nat := [3, 4, 2, 11, 10, 8]
def L.declkj : List Nat := [3, 4, 2, 11, 10, 9]
def L.decmji : List Nat := [3, 4, 2, 12, 9, 8]
def L.decmkj : List Nat := [3, 4, 2, 12, 10, 9]
def L.deij : List Nat := [3, 4, 8, 9]
def L.deik : List Nat := [3, 4, 8, 10]
def L.deil : List Nat := [3, 4, 8, 11]
def L.deim : List Nat := [3, 4, 8, 12]
def L.deji : List Nat := [3, 4, 9, 8]
def L.dejk : List Nat := [3, 4, 9, 10]
def L.dejl : List Nat := [3, 4, 9, 11]
def L.dejm : List Nat := [3, 4, 9, 12]
def L.dekj : List Nat := [3, 4, 10, 9]
def L.dekl : List Nat := [3, 4, 10, 11]
def L.dekm : List Nat := [3, 4, 10, 12]
def L.dekn : List Nat := [3, 4, 10, 13]
def L.delc : List Nat := [3, 4, 11, 2]
def L.deli : List Nat := [3, 4, 11, 8]
def L.delj : List Nat := [3, 4, 11, 9]
def L.delk : List Nat := [3, 4, 11, 10]
def L.delm : List Nat := [3, 4, 11, 12]
def L.deln : List Nat := [3, 4, 11, 13]
def L.demj : List Nat := [3, 4, 12, 9]
def L.deml : List Nat := [3, 4, 12, 11]
def L.demn : List Nat := [3, 4, 12, 13]
def L.dfab : List Nat := [3, 5, 0, 1]
def L.dfaeijkn : List Nat := [3, 5, 0, 4, 8, 9, 10, 13]
def L.dfaeikln : List Nat := [3, 5, 0, 4, 8, 10, 11, 13]
def L.dfceijkn : List Nat := [3, 5, 2, 4, 8, 9, 10, 13]
def L.dfceikln : List Nat := [3, 5, 2, 4, 8, 10, 11, 13]
def L.dfgh : List Nat := [3, 5, 6, 7]
def L.dfjm : List Nat := [3, 5, 9, 12]
def L.dfkb : List Nat := [3, 5, 10, 1]
def L.dfke : List Nat := [3, 5, 10, 4]
def L.dfkl : List Nat := [3, 5, 10, 11]
def L.dfkm : List Nat := [3, 5, 10, 12]
def L.dfkn : List Nat := [3, 5, 10, 13]
def L.dflb : List Nat := [3, 5, 11, 1]
def L.dfle : List Nat := [3, 5, 11, 4]
def L.dflm : List Nat := [3, 5, 11, 12]
def L.dfln : List Nat := [3, 5, 11, 13]
def L.dfmb : List Nat := [3, 5, 12, 1]
def L.dfme : List Nat := [3, 5, 12, 4]
def L.dgmn : List Nat := [3, 6, 12, 13]
def L.di : List Nat := [3, 8]
def L.dj : List Nat := [3, 9]
def L.dk : List Nat := [3, 10]
def L.dl : List Nat := [3, 11]
def L.dmej : List Nat := [3, 12, 4, 9]
def L.dmel : List Nat := [3, 12, 4, 11]
def L.dmie : List Nat := [3, 12, 8, 4]
def L.dmij : List Nat := [3, 12, 8, 9]
def L.dmil : List Nat := [3, 12, 8, 11]
def L.dmje : List Nat := [3, 12, 9, 4]
def L.dmjl : List Nat := [3, 12, 9, 11]
def L.dmkl : List Nat := [3, 12, 10, 11]
def L.dmle : List Nat := [3, 12, 11, 4]
def L.dmlj : List Nat := [3, 12, 11, 9]
def L.dmlk : List Nat := [3, 12, 11, 10]
def L.dpmg : List Nat := [3, 15, 12, 6]
def L.ea : List Nat := [4, 0]
def L.eabcijkm : List Nat := [4, 0, 1, 2, 8, 9, 10, 12]
def L.eabdijkl : List Nat := [4, 0, 1, 3, 8, 9, 10, 11]
def L.eabdijkm : List Nat := [4, 0, 1, 3, 8, 9, 10, 12]
def L.eabdijmk : List Nat := [4, 0, 1, 3, 8, 9, 12, 10]
def L.eabdijml : List Nat := [4, 0, 1, 3, 8, 9, 12, 11]
def L.eabdiklm : List Nat := [4, 0, 1, 3, 8, 10, 11, 12]
def L.eabdikml : List Nat := [4, 0, 1, 3, 8, 10, 12, 11]
def L.eabdimkj : List Nat := [4, 0, 1, 3, 8, 12, 10, 9]
def L.eabdimlk : List Nat := [4, 0, 1, 3, 8, 12, 11, 10]
def L.eabdmjki : List Nat := [4, 0, 1, 3, 12, 9, 10, 8]
def L.eabdmkli : List Nat := [4, 0, 1, 3, 12, 10, 11, 8]
def L.eabijk : List Nat := [4, 0, 1, 8, 9, 10]
def L.eabijl : List Nat := [4, 0, 1, 8, 9, 11]
def L.eabijm : List Nat := [4, 0, 1, 8, 9, 12]
def L.eabikj : List Nat := [4, 0, 1, 8, 10, 9]
def L.eabikl : List Nat := [4, 0, 1, 8, 10, 11]
def L.eabilj : List Nat := [4, 0, 1, 8, 11, 9]
def L.eabilk : List Nat := [4, 0, 1, 8, 11, 10]
def L.eabilm : List Nat := [4, 0, 1, 8, 11, 12]
def L.eabimj : List Nat := [4, 0, 1, 8, 12, 9]
def L.eabiml : List Nat := [4, 0, 1, 8, 12, 11]
def L.eabjkl : List Nat := [4, 0, 1, 9, 10, 11]
def L.eabjkm : List Nat := [4, 0, 1, 9, 10, 12]
def L.eabkil : List Nat := [4, 0, 1, 10, 8, 11]
def L.eabkji : List Nat := [4, 0, 1, 10, 9, 8]
def L.eabkml : List Nat := [4, 0, 1, 10, 12, 11]
def L.eablji : List Nat := [4, 0, 1, 11, 9, 8]
def L.eablki : List Nat := [4, 0, 1, 11, 10, 8]
def L.eablkj : List Nat := [4, 0, 1, 11, 10, 9]
def L.eablmi : List Nat := [4, 0, 1, 11, 12, 8]
def L.eablmj : List Nat := [4, 0, 1, 11, 12, 9]
def L.eablmk : List Nat := [4, 0, 1, 11, 12, 10]
def L.eabmil : List Nat := [4, 0, 1, 12, 8, 11]
def L.eabmji : List Nat := [4, 0, 1, 12, 9, 8]
def L.eabmkj : List Nat := [4, 0, 1, 12, 10, 9]
def L.eabmkl : List Nat := [4, 0, 1, 12, 10, 11]
def L.eacd : List Nat := [4, 0, 2, 3]
def L.eacdimkj : List Nat := [4, 0, 2, 3, 8, 12, 10, 9]
def L.eacdimlk : List Nat := [4, 0, 2, 3, 8, 12, 11, 10]
def L.eacikj : List Nat := [4, 0, 2, 8, 10, 9]
def L.eacikl : List Nat := [4, 0, 2, 8, 10, 11]
def L.eacilj : List Nat := [4, 0, 2, 8, 11, 9]
def L.eacilk : List Nat := [4, 0, 2, 8, 11, 10]
def L.eacilm : List Nat := [4, 0, 2, 8, 11, 12]
def L.eacimj : List Nat := [4, 0, 2, 8, 12, 9]
def L.eaciml : List Nat := [4, 0, 2, 8, 12, 11]
def L.eaclmj : List Nat := [4, 0, 2, 11, 12, 9]
def L.eaclmk : List Nat := [4, 0, 2, 11, 12, 10]
def L.eadijk : List Nat := [4, 0, 3, 8, 9, 10]
def L.eadijl : List Nat := [4, 0, 3, 8, 9, 11]
def L.eadikl : List Nat := [4, 0, 3, 8, 10, 11]
def L.eafcinkj : List Nat := [4, 0, 5, 2, 8, 13, 10, 9]
def L.eafcinlk : List Nat := [4, 0, 5, 2, 8, 13, 11, 10]
def L.eafdijkl : List Nat := [4, 0, 5, 3, 8, 9, 10, 11]
def L.eafdijkn : List Nat := [4, 0, 5, 3, 8, 9, 10, 13]
def L.eafdijln : List Nat := [4, 0, 5, 3, 8, 9, 11, 13]
def L.eafdikln : List Nat := [4, 0, 5, 3, 8, 10, 11, 13]
def L.eafdinkj : List Nat := [4, 0, 5, 3, 8, 13, 10, 9]
def L.eafdinlk : List Nat := [4, 0, 5, 3, 8, 13, 11, 10]
def L.eaij : List Nat := [4, 0, 8, 9]
def L.eaik : List Nat := [4, 0, 8, 10]
def L.eail : List Nat := [4, 0, 8, 11]
def L.eaim : List Nat := [4, 0, 8, 12]
def L.eain : List Nat := [4, 0, 8, 13]
def L.eaji : List Nat := [4, 0, 9, 8]
def L.eajk : List Nat := [4, 0, 9, 10]
def L.eajl : List Nat := [4, 0, 9, 11]
def L.eajm : List Nat := [4, 0, 9, 12]
def L.eakj : List Nat := [4, 0, 10, 9]
def L.eakl : List Nat := [4, 0, 10, 11]
def L.eakm : List Nat := [4, 0, 10, 12]
def L.eakn : List Nat := [4, 0, 10, 13]
def L.eali : List Nat := [4, 0, 11, 8]
def L.ealj : List Nat := [4, 0, 11, 9]
def L.ealk : List Nat := [4, 0, 11, 10]
def L.ealm : List Nat := [4, 0, 11, 12]
def L.eamc : List Nat := [4, 0, 12, 2]
def L.eami : List Nat := [4, 0, 12, 8]
def L.eamj : List Nat := [4, 0, 12, 9]
def L.eamk : List Nat := [4, 0, 12, 10]
def L.eaml : List Nat := [4, 0, 12, 11]
def L.eamn : List Nat := [4, 0, 12, 13]
def L.eanc : List Nat := [4, 0, 13, 2]
def L.eani : List Nat := [4, 0, 13, 8]
def L.eanm : List Nat := [4, 0, 13, 12]
def L.ebafijkl : List Nat := [4, 1, 0, 5, 8, 9, 10, 11]
def L.ebafijkn : List Nat := [4, 1, 0, 5, 8, 9, 10, 13]
def L.ebafijnk : List Nat := [4, 1, 0, 5, 8, 9, 13, 10]
def L.ebafijnl : List Nat := [4, 1, 0, 5, 8, 9, 13, 11]
def L.ebafiknl : List Nat := [4, 1, 0, 5, 8, 10, 13, 11]
def L.ebcd : List Nat := [4, 1, 2, 3]
def L.ebcdijkl : List Nat := [4, 1, 2, 3, 8, 9, 10, 11]
def L.ebcdijkm : List Nat := [4, 1, 2, 3, 8, 9, 10, 12]
def L.ebcdijml : List Nat := [4, 1, 2, 3, 8, 9, 12, 11]
def L.ebcdiklm : List Nat := [4, 1, 2, 3, 8, 10, 11, 12]
def L.ebcdikml : List Nat := [4, 1, 2, 3, 8, 10, 12, 11]
def L.ebcdimlk : List Nat := [4, 1, 2, 3, 8, 12, 11, 10]
def L.ebcdjklm : List Nat := [4, 1, 2, 3, 9, 10, 11, 12]
def L.ebcdmjki : List Nat := [4, 1, 2, 3, 12, 9, 10, 8]
def L.ebcdmkli : List Nat := [4, 1, 2, 3, 12, 10, 11, 8]
def L.ebcdmklj : List Nat := [4, 1, 2, 3, 12, 10, 11, 9]
def L.ebcijk : List Nat := [4, 1, 2, 8, 9, 10]
def L.ebcijl : List Nat := [4, 1, 2, 8, 9, 11]
def L.ebcijm : List Nat := [4, 1, 2, 8, 9, 12]
def L.ebcikl : List Nat := [4, 1, 2, 8, 10, 11]
def L.ebcilk : List Nat := [4, 1, 2, 8, 11, 10]
def L.ebcilm : List Nat := [4, 1, 2, 8, 11, 12]
def L.ebcimk : List Nat := [4, 1, 2, 8, 12, 10]
def L.ebciml : List Nat := [4, 1, 2, 8, 12, 11]
def L.ebcjkl : List Nat := [4, 1, 2, 9, 10, 11]
def L.ebcjkm : List Nat := [4, 1, 2, 9, 10, 12]
def L.ebcjlk : List Nat := [4, 1, 2, 9, 11, 10]
def L.ebcjmk : List Nat := [4, 1, 2, 9, 12, 10]
def L.ebcjml : List Nat := [4, 1, 2, 9, 12, 11]
def L.ebckml : List Nat := [4, 1, 2, 10, 12, 11]
def L.ebclji : List Nat := [4, 1, 2, 11, 9, 8]
def L.ebclkj : List Nat := [4, 1, 2, 11, 10, 9]
def L.ebclmi : List Nat := [4, 1, 2, 11, 12, 8]
def L.ebclmj : List Nat := [4, 1, 2, 11, 12, 9]
def L.ebclmk : List Nat := [4, 1, 2, 11, 12, 10]
def L.ebcmil : List Nat := [4, 1, 2, 12, 8, 11]
def L.ebcmji : List Nat := [4, 1, 2, 12, 9, 8]
def L.ebcmjl : List Nat := [4, 1, 2, 12, 9, 11]
def L.ebcmkj : List Nat := [4, 1, 2, 12, 10, 9]
def L.ebcmkl : List Nat := [4, 1, 2, 12, 10, 11]
def L.ebdijk : List Nat := [4, 1, 3, 8, 9, 10]
def L.ebfcijkl : List Nat := [4, 1, 5, 2, 8, 9, 10, 11]
def L.ebfcijkn : List Nat := [4, 1, 5, 2, 8, 9, 10, 13]
def L.ebfcinlk : List Nat := [4, 1, 5, 2, 8, 13, 11, 10]
def L.ebfdijkl : List Nat := [4, 1, 5, 3, 8, 9, 10, 11]
def L.ebfdijkn : List Nat := [4, 1, 5, 3, 8, 9, 10, 13]
def L.ebfdinlk : List Nat := [4, 1, 5, 3, 8, 13, 11, 10]
def L.ebij : List Nat := [4, 1, 8, 9]
def L.ebik : List Nat := [4, 1, 8, 10]
def L.ebil : List Nat := [4, 1, 8, 11]
def L.ebim : List Nat := [4, 1, 8, 12]
def L.ebji : List Nat := [4, 1, 9, 8]
def L.ebjk : List Nat := [4, 1, 9, 10]
def L.ebjl : List Nat := [4, 1, 9, 11]
def L.ebjm : List Nat := [4, 1, 9, 12]
def L.ebkj : List Nat := [4, 1, 10, 9]
def L.ebkl : List Nat := [4, 1, 10, 11]
def L.ebkm : List Nat := [4, 1, 10, 12]
def L.ebkn : List Nat := [4, 1, 10, 13]
def L.ebli : List Nat := [4, 1, 11, 8]
def L.eblj : List Nat := [4, 1, 11, 9]
def L.eblk : List Nat := [4, 1, 11, 10]
def L.eblm : List Nat := [4, 1, 11, 12]
def L.ebmd : List Nat := [4, 1, 12, 3]
def L.ebmi : List Nat := [4, 1, 12, 8]
def L.ebmj : List Nat := [4, 1, 12, 9]
def L.ebmk : List Nat := [4, 1, 12, 10]
def L.ebml : List Nat := [4, 1, 12, 11]
def L.ebmn : List Nat := [4, 1, 12, 13]
def L.ebnd : List Nat := [4, 1, 13, 3]
def L.ebnk : List Nat := [4, 1, 13, 10]
def L.ebnm : List Nat := [4, 1, 13, 12]
def L.ecaikl : List Nat := [4, 2, 0, 8, 10, 11]
def L.ecbd : List Nat := [4, 2, 1, 3]
def L.ecbfijkl : List Nat := [4, 2, 1, 5, 8, 9, 10, 11]
def L.ecbfijkn : List Nat := [4, 2, 1, 5, 8, 9, 10, 13]
def L.ecbfijnl : List Nat := [4, 2, 1, 5, 8, 9, 13, 11]
def L.ecbfikln : List Nat := [4, 2, 1, 5, 8, 10, 11, 13]
def L.ecbfiknl : List Nat := [4, 2, 1, 5, 8, 10, 13, 11]
def L.ecbijk : List Nat := [4, 2, 1, 8, 9, 10]
def L.ecbikj : List Nat := [4, 2, 1, 8, 10, 9]
def L.ecbikl : List Nat := [4, 2, 1, 8, 10, 11]
def L.ecbilk : List Nat := [4, 2, 1, 8, 11, 10]
def L.ecbjkl : List Nat := [4, 2, 1, 9, 10, 11]
def L.ecbkil : List Nat := [4, 2, 1, 10, 8, 11]
def L.ecbkji : List Nat := [4, 2, 1, 10, 9, 8]
def L.ecbkjl : List Nat := [4, 2, 1, 10, 9, 11]
def L.ecblki : List Nat := [4, 2, 1, 11, 10, 8]
def L.ecblkj : List Nat := [4, 2, 1, 11, 10, 9]
def L.ecdijk : List Nat := [4, 2, 3, 8, 9, 10]
def L.ecdijl : List Nat := [4, 2, 3, 8, 9, 11]
def L.ecdikj : List Nat := [4, 2, 3, 8, 10, 9]
def L.ecdikl : List Nat := [4, 2, 3, 8, 10, 11]
def L.ecdilk : List Nat := [4, 2, 3, 8, 11, 10]
def L.ecdjkl : List Nat := [4, 2, 3, 9, 10, 11]
def L.ecfdijln : List Nat := [4, 2, 5, 3, 8, 9, 11, 13]
def L.ecfdikln : List Nat := [4, 2, 5, 3, 8, 10, 11, 13]
def L.ecij : List Nat := [4, 2, 8, 9]
def L.ecik : List Nat := [4, 2, 8, 10]
def L.ecil : List Nat := [4, 2, 8, 11]
def L.ecim : List Nat := [4, 2, 8, 12]
def L.ecji : List Nat := [4, 2, 9, 8]
def L.ecjk : List Nat := [4, 2, 9, 10]
def L.ecjl : List Nat := [4, 2, 9, 11]
def L.ecjm : List Nat := [4, 2, 9, 12]
def L.eckj : List Nat := [4, 2, 10, 9]
def L.eckl : List Nat := [4, 2, 10, 11]
def L.eckm : List Nat := [4, 2, 10, 12]
def L.ecli : List Nat := [4, 2, 11, 8]
def L.eclj : List Nat := [4, 2, 11, 9]
def L.eclk : List Nat := [4, 2, 11, 10]
def L.eclm : List Nat := [4, 2, 11, 12]
def L.ecmi : List Nat := [4, 2, 12, 8]
def L.ecmj : List Nat := [4, 2, 12, 9]
def L.ecmk : List Nat := [4, 2, 12, 10]
def L.ecml : List Nat := [4, 2, 12, 11]
def L.ecmn : List Nat := [4, 2, 12, 13]
def L.ecnb : List Nat := [4, 2, 13, 1]
def L.ecnd : List Nat := [4, 2, 13, 3]
def L.ecnm : List Nat := [4, 2, 13, 12]
def L.edafijkn : List Nat := [4, 3, 0, 5, 8, 9, 10, 13]
def L.edafikln : List Nat := [4, 3, 0, 5, 8, 10, 11, 13]
def L.edamji : List Nat := [4, 3, 0, 12, 9, 8]
def L.edamkj : List Nat := [4, 3, 0, 12, 10, 9]
def L.edbc : List Nat := [4, 3, 1, 2]
def L.edbijk : List Nat := [4, 3, 1, 8, 9, 10]
def L.edcfijkn : List Nat := [4, 3, 2, 5, 8, 9, 10, 13]
def L.edcfikln : List Nat := [4, 3, 2, 5, 8, 10, 11, 13]
def L.edcijk : List Nat := [4, 3, 2, 8, 9, 10]
def L.edcijm : List Nat := [4, 3, 2, 8, 9, 12]
def L.edcikj : List Nat := [4, 3, 2, 8, 10, 9]
def L.edcikl : List Nat := [4, 3, 2, 8, 10, 11]
def L.edcikm : List Nat := [4, 3, 2, 8, 10, 12]
def L.edcilk : List Nat := [4, 3, 2, 8, 11, 10]
def L.edcjkl : List Nat := [4, 3, 2, 9, 10, 11]
def L.edcjkm : List Nat := [4, 3, 2, 9, 10, 12]
def L.edcmji : List Nat := [4, 3, 2, 12, 9, 8]
def L.edcmkj : List Nat := [4, 3, 2, 12, 10, 9]
def L.edgh : List Nat := [4, 3, 6, 7]
def L.edhg : List Nat := [4, 3, 7, 6]
def L.edij : List Nat := [4, 3, 8, 9]
def L.edik : List Nat := [4, 3, 8, 10]
def L.edil : List Nat := [4, 3, 8, 11]
def L.edim : List Nat := [4, 3, 8, 12]
def L.edji : List Nat := [4, 3, 9, 8]
def L.edjk : List Nat := [4, 3, 9, 10]
def L.edjl : List Nat := [4, 3, 9, 11]
def L.edjm : List Nat := [4, 3, 9, 12]
def L.edkj : List Nat := [4, 3, 10, 9]
def L.edkl : List Nat := [4, 3, 10, 11]
def L.edkm : List Nat := [4, 3, 10, 12]
def L.edli : List Nat := [4, 3, 11, 8]
def L.edlj : List Nat := [4, 3, 11, 9]
def L.edlk : List Nat := [4, 3, 11, 10]
def L.edlm : List Nat := [4, 3, 11, 12]
def L.edmj : List Nat := [4, 3, 12, 9]
def L.edml : List Nat := [4, 3, 12, 11]
def L.edmn : List Nat := [4, 3, 12, 13]
def L.ednc : List Nat := [4, 3, 13, 2]
def L.ednm : List Nat := [4, 3, 13, 12]
def L.efab : List Nat := [4, 5, 0, 1]
def L.efabijkn : List Nat := [4, 5, 0, 1, 8, 9, 10, 13]
def L.efadijkl : List Nat := [4, 5, 0, 3, 8, 9, 10, 11]
def L.efadijkn : List Nat := [4, 5, 0, 3, 8, 9, 10, 13]
def L.efadijnk : List Nat := [4, 5, 0, 3, 8, 9, 13, 10]
def L.efadijnl : List Nat := [4, 5, 0, 3, 8, 9, 13, 11]
def L.efadikln : List Nat := [4, 5, 0, 3, 8, 10, 11, 13]
def L.efadiknl : List Nat := [4, 5, 0, 3, 8, 10, 13, 11]
def L.efadnjki : List Nat := [4, 5, 0, 3, 13, 9, 10, 8]
def L.efadnkli : List Nat := [4, 5, 0, 3, 13, 10, 11, 8]
def L.efba : List Nat := [4, 5, 1, 0]
def L.efbcijkl : List Nat := [4, 5, 1, 2, 8, 9, 10, 11]
def L.efbcijkn : List Nat := [4, 5, 1, 2, 8, 9, 10, 13]
def L.efbcijnk : List Nat := [4, 5, 1, 2, 8, 9, 13, 10]
def L.efbcikln : List Nat := [4, 5, 1, 2, 8, 10, 11, 13]
def L.efbcinkj : List Nat := [4, 5, 1, 2, 8, 13, 10, 9]
def L.efbcinlk : List Nat := [4, 5, 1, 2, 8, 13, 11, 10]
def L.efbcjkln : List Nat := [4, 5, 1, 2, 9, 10, 11, 13]
def L.efbcnjki : List Nat := [4, 5, 1, 2, 13, 9, 10, 8]
def L.efbcnkli : List Nat := [4, 5, 1, 2, 13, 10, 11, 8]
def L.efbcnklj : List Nat := [4, 5, 1, 2, 13, 10, 11, 9]
def L.efbd : List Nat := [4, 5, 1, 3]
def L.efbdijnk : List Nat := [4, 5, 1, 3, 8, 9, 13, 10]
def L.efcd : List Nat := [4, 5, 2, 3]
def L.efcdijkl : List Nat := [4, 5, 2, 3, 8, 9, 10, 11]
def L.efcdijkn : List Nat := [4, 5, 2, 3, 8, 9, 10, 13]
def L.efcdijnl : List Nat := [4, 5, 2, 3, 8, 9, 13, 11]
def L.efcdikln : List Nat := [4, 5, 2, 3, 8, 10, 11, 13]
def L.efcdiknl : List Nat := [4, 5, 2, 3, 8, 10, 13, 11]
def L.efcdinkj : List Nat := [4, 5, 2, 3, 8, 13, 10, 9]
def L.efcdinlk : List Nat := [4, 5, 2, 3, 8, 13, 11, 10]
def L.efcdjkln : List Nat := [4, 5, 2, 3, 9, 10, 11, 13]
def L.efcdnjki : List Nat := [4, 5, 2, 3, 13, 9, 10, 8]
def L.efcdnkli : List Nat := [4, 5, 2, 3, 13, 10, 11, 8]
def L.efcdnklj : List Nat := [4, 5, 2, 3, 13, 10, 11, 9]
def L.efch : List Nat := [4, 5, 2, 7]
def L.efgh : List Nat := [4, 5, 6, 7]
def L.efhg : List Nat := [4, 5, 7, 6]
def L.efij : List Nat := [4, 5, 8, 9]
def L.efik : List Nat := [4, 5, 8, 10]
def L.efil : List Nat := [4, 5, 8, 11]
def L.efim : List Nat := [4, 5, 8, 12]
def L.efin : List Nat := [4, 5, 8, 13]
def L.efji : List Nat := [4, 5, 9, 8]
def L.efjk : List Nat := [4, 5, 9, 10]
def L.efjl : List Nat := [4, 5, 9, 11]
def L.efjm : List Nat := [4, 5, 9, 12]
def L.efjn : List Nat := [4, 5, 9, 13]
def L.efkb : List Nat := [4, 5, 10, 1]
def L.efkc : List Nat := [4, 5, 10, 2]
def L.efkd : List Nat := [4, 5, 10, 3]
def L.efkl : List Nat := [4, 5, 10, 11]
def L.efkm : List Nat := [4, 5, 10, 12]
def L.eflb : List Nat := [4, 5, 11, 1]
def L.eflc : List Nat := [4, 5, 11, 2]
def L.efld : List Nat := [4, 5, 11, 3]
def L.eflj : List Nat := [4, 5, 11, 9]
def L.eflk : List Nat := [4, 5, 11, 10]
def L.eflm : List Nat := [4, 5, 11, 12]
def L.efmc : List Nat := [4, 5, 12, 2]
def L.efmd : List Nat := [4, 5, 12, 3]
def L.efmg : List Nat := [4, 5, 12, 6]
def L.efmh : List Nat := [4, 5, 12, 7]
def L.efmi : List Nat := [4, 5, 12, 8]
def L.efmj : List Nat := [4, 5, 12, 9]
def L.efml : List Nat := [4, 5, 12, 11]
def L.efmn : List Nat := [4, 5, 12, 13]
def L.efna : List Nat := [4, 5, 13, 0]
def L.efnc : List Nat := [4, 5, 13, 2]
def L.efnd : List Nat := [4, 5, 13, 3]
def L.efng : List Nat := [4, 5, 13, 6]
def L.efnh : List Nat := [4, 5, 13, 7]
def L.efnm : List Nat := [4, 5, 13, 12]
def L.egdh : List Nat := [4, 6, 3, 7]
def L.egmh : List Nat := [4, 6, 12, 7]
def L.egnh : List Nat := [4, 6, 13, 7]
def L.ehcf : List Nat := [4, 7, 2, 5]
def L.ehdf : List Nat := [4, 7, 3, 5]
def L.ehmc : List Nat := [4, 7, 12, 2]
def L.ehmd : List Nat := [4, 7, 12, 3]
def L.ehmf : List Nat := [4, 7, 12, 5]
def L.ehmn : List Nat := [4, 7, 12, 13]
def L.ehnd : List Nat := [4, 7, 13, 3]
def L.ei : List Nat := [4, 8]
def L.eian : List Nat := [4, 8, 0, 13]
def L.eima : List Nat := [4, 8, 12, 0]
def L.eina : List Nat := [4, 8, 13, 0]
def L.ej : List Nat := [4, 9]
def L.ek : List Nat := [4, 10]
def L.eobc : List Nat := [4, 14, 1, 2]
def L.eocd : List Nat := [4, 14, 2, 3]
def L.eogh : List Nat := [4, 14, 6, 7]
def L.eomb : List Nat := [4, 14, 12, 1]
def L.eomc : List Nat := [4, 14, 12, 2]
def L.eomd : List Nat := [4, 14, 12, 3]
def L.eomn : List Nat := [4, 14, 12, 13]
def L.eonb : List Nat := [4, 14, 13, 1]
def L.eonc : List Nat := [4, 14, 13, 2]
def L.epaf : List Nat := [4, 15, 0, 5]
def L.epbc : List Nat := [4, 15, 1, 2]
def L.epbd : List Nat := [4, 15, 1, 3]
def L.epcd : List Nat := [4, 15, 2, 3]
def L.epcf : List Nat := [4, 15, 2, 5]
def L.epdf : List Nat := [4, 15, 3, 5]
def L.epmb : List Nat := [4, 15, 12, 1]
def L.epmc : List Nat := [4, 15, 12, 2]
def L.epmd : List Nat := [4, 15, 12, 3]
def L.epmf : List Nat := [4, 15, 12, 5]
def L.epmn : List Nat := [4, 15, 12, 13]
def L.epnb : List Nat := [4, 15, 13, 1]
def L.epnd : List Nat := [4, 15, 13, 3]
def L.epnf : List Nat := [4, 15, 13, 5]
def L.fa : List Nat := [5, 0]
def L.fabcijkn : List Nat := [5, 0, 1, 2, 8, 9, 10, 13]
def L.fabcijnm : List Nat := [5, 0, 1, 2, 8, 9, 13, 12]
def L.fabcjknm : List Nat := [5, 0, 1, 2, 9, 10, 13, 12]
def L.fabdijkl : List Nat := [5, 0, 1, 3, 8, 9, 10, 11]
def L.fabdijkn : List Nat := [5, 0, 1, 3, 8, 9, 10, 13]
def L.fabdijmn : List Nat := [5, 0, 1, 3, 8, 9, 12, 13]
def L.fabdijnk : List Nat := [5, 0, 1, 3, 8, 9, 13, 10]
def L.fabdijnl : List Nat := [5, 0, 1, 3, 8, 9, 13, 11]
def L.fabdijnm : List Nat := [5, 0, 1, 3, 8, 9, 13, 12]
def L.fabdikln : List Nat := [5, 0, 1, 3, 8, 10, 11, 13]
def L.fabdiknl : List Nat := [5, 0, 1, 3, 8, 10, 13, 11]
def L.fabdilnm : List Nat := [5, 0, 1, 3, 8, 11, 13, 12]
def L.fabdimnj : List Nat := [5, 0, 1, 3, 8, 12, 13, 9]
def L.fabdimnk : List Nat := [5, 0, 1, 3, 8, 12, 13, 10]
def L.fabdimnl : List Nat := [5, 0, 1, 3, 8, 12, 13, 11]
def L.fabdinjm : List Nat := [5, 0, 1, 3, 8, 13, 9, 12]
def L.fabdinkj : List Nat := [5, 0, 1, 3, 8, 13, 10, 9]
def L.fabdinlk : List Nat := [5, 0, 1, 3, 8, 13, 11, 10]
def L.fabdinlm : List Nat := [5, 0, 1, 3, 8, 13, 11, 12]
def L.fabdjkmn : List Nat := [5, 0, 1, 3, 9, 10, 12, 13]
def L.fabdjknm : List Nat := [5, 0, 1, 3, 9, 10, 13, 12]
def L.fabdjmnk : List Nat := [5, 0, 1, 3, 9, 12, 13, 10]
def L.fabdjmnl : List Nat := [5, 0, 1, 3, 9, 12, 13, 11]
def L.fabdmjni : List Nat := [5, 0, 1, 3, 12, 9, 13, 8]
def L.fabdmknj : List Nat := [5, 0, 1, 3, 12, 10, 13, 9]
def L.fabdmlni : List Nat := [5, 0, 1, 3, 12, 11, 13, 8]
def L.fabdnjim : List Nat := [5, 0, 1, 3, 13, 9, 8, 12]
def L.fabdnjki : List Nat := [5, 0, 1, 3, 13, 9, 10, 8]
def L.fabdnkjm : List Nat := [5, 0, 1, 3, 13, 10, 9, 12]
def L.fabdnkli : List Nat := [5, 0, 1, 3, 13, 10, 11, 8]
def L.fabdnlim : List Nat := [5, 0, 1, 3, 13, 11, 8, 12]
def L.fabdnmjk : List Nat := [5, 0, 1, 3, 13, 12, 9, 10]
def L.fabdnmkl : List Nat := [5, 0, 1, 3, 13, 12, 10, 11]
def L.facdimnj : List Nat := [5, 0, 2, 3, 8, 12, 13, 9]
def L.facdimnl : List Nat := [5, 0, 2, 3, 8, 12, 13, 11]
def L.facdinjm : List Nat := [5, 0, 2, 3, 8, 13, 9, 12]
def L.facdinkj : List Nat := [5, 0, 2, 3, 8, 13, 10, 9]
def L.facdinlk : List Nat := [5, 0, 2, 3, 8, 13, 11, 10]
def L.facdinlm : List Nat := [5, 0, 2, 3, 8, 13, 11, 12]
def L.facdnmjk : List Nat := [5, 0, 2, 3, 13, 12, 9, 10]
def L.facdnmkl : List Nat := [5, 0, 2, 3, 13, 12, 10, 11]
def L.faij : List Nat := [5, 0, 8, 9]
def L.faik : List Nat := [5, 0, 8, 10]
def L.fail : List Nat := [5, 0, 8, 11]
def L.faim : List Nat := [5, 0, 8, 12]
def L.fain : List Nat := [5, 0, 8, 13]
def L.faji : List Nat := [5, 0, 9, 8]
def L.fajk : List Nat := [5, 0, 9, 10]
def L.fajm : List Nat := [5, 0, 9, 12]
def L.faki : List Nat := [5, 0, 10, 8]
def L.fakj : List Nat := [5, 0, 10, 9]
def L.fakl : List Nat := [5, 0, 10, 11]
def L.fakm : List Nat := [5, 0, 10, 12]
def L.fakn : List Nat := [5, 0, 10, 13]
def L.fali : List Nat := [5, 0, 11, 8]
def L.falk : List Nat := [5, 0, 11, 10]
def L.falm : List Nat := [5, 0, 11, 12]
def L.fami : List Nat := [5, 0, 12, 8]
def L.famj : List Nat := [5, 0, 12, 9]
def L.famk : List Nat := [5, 0, 12, 10]
def L.faml : List Nat := [5, 0, 12, 11]
def L.fani : List Nat := [5, 0, 13, 8]
def L.fank : List Nat := [5, 0, 13, 10]
def L.fbcd : List Nat := [5, 1, 2, 3]
def L.fbcdijkl : List Nat := [5, 1, 2, 3, 8, 9, 10, 11]
def L.fbcdijkn : List Nat := [5, 1, 2, 3, 8, 9, 10, 13]
def L.fbcdijmn : List Nat := [5, 1, 2, 3, 8, 9, 12, 13]
def L.fbcdijnl : List Nat := [5, 1, 2, 3, 8, 9, 13, 11]
def L.fbcdijnm : List Nat := [5, 1, 2, 3, 8, 9, 13, 12]
def L.fbcdikln : List Nat := [5, 1, 2, 3, 8, 10, 11, 13]
def L.fbcdiknl : List Nat := [5, 1, 2, 3, 8, 10, 13, 11]
def L.fbcdilnm : List Nat := [5, 1, 2, 3, 8, 11, 13, 12]
def L.fbcdimnk : List Nat := [5, 1, 2, 3, 8, 12, 13, 10]
def L.fbcdimnl : List Nat := [5, 1, 2, 3, 8, 12, 13, 11]
def L.fbcdinkm : List Nat := [5, 1, 2, 3, 8, 13, 10, 12]
def L.fbcdinlk : List Nat := [5, 1, 2, 3, 8, 13, 11, 10]
def L.fbcdinlm : List Nat := [5, 1, 2, 3, 8, 13, 11, 12]
def L.fbcdjkln : List Nat := [5, 1, 2, 3, 9, 10, 11, 13]
def L.fbcdjkmn : List Nat := [5, 1, 2, 3, 9, 10, 12, 13]
def L.fbcdjknm : List Nat := [5, 1, 2, 3, 9, 10, 13, 12]
def L.fbcdjmnk : List Nat := [5, 1, 2, 3, 9, 12, 13, 10]
def L.fbcdjmnl : List Nat := [5, 1, 2, 3, 9, 12, 13, 11]
def L.fbcdjnkm : List Nat := [5, 1, 2, 3, 9, 13, 10, 12]
def L.fbcdklnm : List Nat := [5, 1, 2, 3, 10, 11, 13, 12]
def L.fbcdmjni : List Nat := [5, 1, 2, 3, 12, 9, 13, 8]
def L.fbcdmknj : List Nat := [5, 1, 2, 3, 12, 10, 13, 9]
def L.fbcdmlni : List Nat := [5, 1, 2, 3, 12, 11, 13, 8]
def L.fbcdmlnk : List Nat := [5, 1, 2, 3, 12, 11, 13, 10]
def L.fbcdnjim : List Nat := [5, 1, 2, 3, 13, 9, 8, 12]
def L.fbcdnjki : List Nat := [5, 1, 2, 3, 13, 9, 10, 8]
def L.fbcdnkjm : List Nat := [5, 1, 2, 3, 13, 10, 9, 12]
def L.fbcdnkli : List Nat := [5, 1, 2, 3, 13, 10, 11, 8]
def L.fbcdnklj : List Nat := [5, 1, 2, 3, 13, 10, 11, 9]
def L.fbcdnlim : List Nat := [5, 1, 2, 3, 13, 11, 8, 12]
def L.fbcdnlkm : List Nat := [5, 1, 2, 3, 13, 11, 10, 12]
def L.fbcdnmkl : List Nat := [5, 1, 2, 3, 13, 12, 10, 11]
def L.fbij : List Nat := [5, 1, 8, 9]
def L.fbik : List Nat := [5, 1, 8, 10]
def L.fbil : List Nat := [5, 1, 8, 11]
def L.fbim : List Nat := [5, 1, 8, 12]
def L.fbji : List Nat := [5, 1, 9, 8]
def L.fbjk : List Nat := [5, 1, 9, 10]
def L.fbjl : List Nat := [5, 1, 9, 11]
def L.fbjm : List Nat := [5, 1, 9, 12]
def L.fbki : List Nat := [5, 1, 10, 8]
def L.fbkj : List Nat := [5, 1, 10, 9]
def L.fbkl : List Nat := [5, 1, 10, 11]
def L.fbkm : List Nat := [5, 1, 10, 12]
def L.fbli : List Nat := [5, 1, 11, 8]
def L.fblj : List Nat := [5, 1, 11, 9]
def L.fblk : List Nat := [5, 1, 11, 10]
def L.fblm : List Nat := [5, 1, 11, 12]
def L.fbmc : List Nat := [5, 1, 12, 2]
def L.fbmd : List Nat := [5, 1, 12, 3]
def L.fbmi : List Nat := [5, 1, 12, 8]
def L.fbmj : List Nat := [5, 1, 12, 9]
def L.fbmk : List Nat := [5, 1, 12, 10]
def L.fbml : List Nat := [5, 1, 12, 11]
def L.fbmn : List Nat := [5, 1, 12, 13]
def L.fbnd : List Nat := [5, 1, 13, 3]
def L.fcbd : List Nat := [5, 2, 1, 3]
def L.fcij : List Nat := [5, 2, 8, 9]
def L.fcik : List Nat := [5, 2, 8, 10]
def L.fcil : List Nat := [5, 2, 8, 11]
def L.fcim : List Nat := [5, 2, 8, 12]
def L.fcji : List Nat := [5, 2, 9, 8]
def L.fcjk : List Nat := [5, 2, 9, 10]
def L.fcjl : List Nat := [5, 2, 9, 11]
def L.fcjm : List Nat := [5, 2, 9, 12]
def L.fcki : List Nat := [5, 2, 10, 8]
def L.fckj : List Nat := [5, 2, 10, 9]
def L.fckl : List Nat := [5, 2, 10, 11]
def L.fckm : List Nat := [5, 2, 10, 12]
def L.fcli : List Nat := [5, 2, 11, 8]
def L.fclj : List Nat := [5, 2, 11, 9]
def L.fclk : List Nat := [5, 2, 11, 10]
def L.fclm : List Nat := [5, 2, 11, 12]
def L.fcln : List Nat := [5, 2, 11, 13]
def L.fcma : List Nat := [5, 2, 12, 0]
def L.fcmb : List Nat := [5, 2, 12, 1]
def L.fcmd : List Nat := [5, 2, 12, 3]
def L.fcmj : List Nat := [5, 2, 12, 9]
def L.fcmk : List Nat := [5, 2, 12, 10]
def L.fcml : List Nat := [5, 2, 12, 11]
def L.fcmn : List Nat := [5, 2, 12, 13]
def L.fcna : List Nat := [5, 2, 13, 0]
def L.fcnd : List Nat := [5, 2, 13, 3]
def L.fcnl : List Nat := [5, 2, 13, 11]
def L.fdgh : List Nat := [5, 3, 6, 7]
def L.fdij : List Nat := [5, 3, 8, 9]
def L.fdik : List Nat := [5, 3, 8, 10]
def L.fdil : List Nat := [5, 3, 8, 11]
def L.fdim : List Nat := [5, 3, 8, 12]
def L.fdjk : List Nat := [5, 3, 9, 10]
def L.fdjl : List Nat := [5, 3, 9, 11]
def L.fdjm : List Nat := [5, 3, 9, 12]
def L.fdkl : List Nat := [5, 3, 10, 11]
def L.fdkm : List Nat := [5, 3, 10, 12]
def L.fdlm : List Nat := [5, 3, 11, 12]
def L.fdmg : List Nat := [5, 3, 12, 6]
def L.fdmj : List Nat := [5, 3, 12, 9]
def L.fdmk : List Nat := [5, 3, 12, 10]
def L.fdml : List Nat := [5, 3, 12, 11]
def L.fdmn : List Nat := [5, 3, 12, 13]
def L.fdnc : List Nat := [5, 3, 13, 2]
def L.fdng : List Nat := [5, 3, 13, 6]
def L.feadnjki : List Nat := [5, 4, 0, 3, 13, 9, 10, 8]
def L.feadnkli : List Nat := [5, 4, 0, 3, 13, 10, 11, 8]
def L.febcijkl : List Nat := [5, 4, 1, 2, 8, 9, 10, 11]
def L.febcijkn : List Nat := [5, 4, 1, 2, 8, 9, 10, 13]
def L.febcikln : List Nat := [5, 4, 1, 2, 8, 10, 11, 13]
def L.febcnjki : List Nat := [5, 4, 1, 2, 13, 9, 10, 8]
def L.febcnkli : List Nat := [5, 4, 1, 2, 13, 10, 11, 8]
def L.febcnklj : List Nat := [5, 4, 1, 2, 13, 10, 11, 9]
def L.fecdijkl : List Nat := [5, 4, 2, 3, 8, 9, 10, 11]
def L.fecdijkn : List Nat := [5, 4, 2, 3, 8, 9, 10, 13]
def L.fecdikln : List Nat := [5, 4, 2, 3, 8, 10, 11, 13]
def L.fecdnjki : List Nat := [5, 4, 2, 3, 13, 9, 10, 8]
def L.fecdnkli : List Nat := [5, 4, 2, 3, 13, 10, 11, 8]
def L.fecdnklj : List Nat := [5, 4, 2, 3, 13, 10, 11, 9]
def L.feij : List Nat := [5, 4, 8, 9]
def L.feik : List Nat := [5, 4, 8, 10]
def L.feil : List Nat := [5, 4, 8, 11]
def L.feim : List Nat := [5, 4, 8, 12]
def L.fejk : List Nat := [5, 4, 9, 10]
def L.fejl : List Nat := [5, 4, 9, 11]
def L.fejm : List Nat := [5, 4, 9, 12]
def L.fekl : List Nat := [5, 4, 10, 11]
def L.fekm : List Nat := [5, 4, 10, 12]
def L.felj : List Nat := [5, 4, 11, 9]
def L.felk : List Nat := [5, 4, 11, 10]
def L.felm : List Nat := [5, 4, 11, 12]
def L.femj : List Nat := [5, 4, 12, 9]
def L.feml : List Nat := [5, 4, 12, 11]
def L.femn : List Nat := [5, 4, 12, 13]
def L.fenm : List Nat := [5, 4, 13, 12]
def L.fgch : List Nat := [5, 6, 2, 7]
def L.fgeh : List Nat := [5, 6, 4, 7]
def L.fgmc : List Nat := [5, 6, 12, 2]
def L.fgmd : List Nat := [5, 6, 12, 3]
def L.fgmh : List Nat := [5, 6, 12, 7]
def L.fgmn : List Nat := [5, 6, 12, 13]
def L.fgnc : List Nat := [5, 6, 13, 2]
def L.fgnd : List Nat := [5, 6, 13, 3]
def L.fgnh : List Nat := [5, 6, 13, 7]
def L.fhmc : List Nat := [5, 7, 12, 2]
def L.fhme : List Nat := [5, 7, 12, 4]
def L.fhmn : List Nat := [5, 7, 12, 13]
def L.fhnc : List Nat := [5, 7, 13, 2]
def L.fhne : List Nat := [5, 7, 13, 4]
def L.foeh : List Nat := [5, 14, 4, 7]
def L.fogh : List Nat := [5, 14, 6, 7]
def L.fomn : List Nat := [5, 14, 12, 13]
def L.fonh : List Nat := [5, 14, 13, 7]
def L.fpbd : List Nat := [5, 15, 1, 3]
def L.fpcd : List Nat := [5, 15, 2, 3]
def L.fpmb : List Nat := [5, 15, 12, 1]
def L.fpmd : List Nat := [5, 15, 12, 3]
def L.fpmn : List Nat := [5, 15, 12, 13]
def L.fpnc : List Nat := [5, 15, 13, 2]
def L.fpnd : List Nat := [5, 15, 13, 3]
def L.gdmh : List Nat := [6, 3, 12, 7]
def L.gdnh : List Nat := [6, 3, 13, 7]
def L.gemh : List Nat := [6, 4, 12, 7]
def L.genh : List Nat := [6, 4, 13, 7]
def L.ghcd : List Nat := [6, 7, 2, 3]
def L.ghcf : List Nat := [6, 7, 2, 5]
def L.ghef : List Nat := [6, 7, 4, 5]
def L.ghmc : List Nat := [6, 7, 12, 2]
def L.ghmd : List Nat := [6, 7, 12, 3]
def L.ghme : List Nat := [6, 7, 12, 4]
def L.ghmn : List Nat := [6, 7, 12, 13]
def L.ghnc : List Nat := [6, 7, 13, 2]
def L.ghnd : List Nat := [6, 7, 13, 3]
def L.ghne : List Nat := [6, 7, 13, 4]
def L.ghnf : List Nat := [6, 7, 13, 5]
def L.ghop : List Nat := [6, 7, 14, 15]
def L.gomc : List Nat := [6, 14, 12, 2]
def L.gomh : List Nat := [6, 14, 12, 7]
def L.gonh : List Nat := [6, 14, 13, 7]
def L.gpmc : List Nat := [6, 15, 12, 2]
def L.gpmn : List Nat := [6, 15, 12, 13]
def L.hemg : List Nat := [7, 4, 12, 6]
def L.heng : List Nat := [7, 4, 13, 6]
def L.hfmg : List Nat := [7, 5, 12, 6]
def L.hfng : List Nat := [7, 5, 13, 6]
def L.homc : List Nat := [7, 14, 12, 2]
def L.homd : List Nat := [7, 14, 12, 3]
def L.homn : List Nat := [7, 14, 12, 13]
def L.honc : List Nat := [7, 14, 13, 2]
def L.hond : List Nat := [7, 14, 13, 3]
def L.hpnd : List Nat := [7, 15, 13, 3]
def L.ia : List Nat := [8, 0]
def L.iaai : List Nat := [8, 0, 0, 8]
def L.iaia : List Nat := [8, 0, 8, 0]
def L.ib : List Nat := [8, 1]
def L.ibcd : List Nat := [8, 1, 2, 3]
def L.ibfc : List Nat := [8, 1, 5, 2]
def L.ibja : List Nat := [8, 1, 9, 0]
def L.ibjk : List Nat := [8, 1, 9, 10]
def L.ic : List Nat := [8, 2]
def L.icad : List Nat := [8, 2, 0, 3]
def L.icde : List Nat := [8, 2, 3, 4]
def L.icef : List Nat := [8, 2, 4, 5]
def L.id : List Nat := [8, 3]
def L.ieam : List Nat := [8, 4, 0, 12]
def L.iean : List Nat := [8, 4, 0, 13]
def L.ifan : List Nat := [8, 5, 0, 13]
def L.ifma : List Nat := [8, 5, 12, 0]
def L.ii : List Nat := [8, 8]
def L.iiaa : List Nat := [8, 8, 0, 0]
def L.iibb : List Nat := [8, 8, 1, 1]
def L.iijj : List Nat := [8, 8, 9, 9]
def L.ij : List Nat := [8, 9]
def L.ijab : List Nat := [8, 9, 0, 1]
def L.ijabcd : List Nat := [8, 9, 0, 1, 2, 3]
def L.ijabcf : List Nat := [8, 9, 0, 1, 2, 5]
def L.ijabdc : List Nat := [8, 9, 0, 1, 3, 2]
def L.ijac : List Nat := [8, 9, 0, 2]
def L.ijacbd : List Nat := [8, 9, 0, 2, 1, 3]
def L.ijacbf : List Nat := [8, 9, 0, 2, 1, 5]
def L.ijacdb : List Nat := [8, 9, 0, 2, 3, 1]
def L.ijad : List Nat := [8, 9, 0, 3]
def L.ijadbc : List Nat := [8, 9, 0, 3, 1, 2]
def L.ijadcb : List Nat := [8, 9, 0, 3, 2, 1]
def L.ijae : List Nat := [8, 9, 0, 4]
def L.ijba : List Nat := [8, 9, 1, 0]
def L.ijbacd : List Nat := [8, 9, 1, 0, 2, 3]
def L.ijbacf : List Nat := [8, 9, 1, 0, 2, 5]
def L.ijbadc : List Nat := [8, 9, 1, 0, 3, 2]
def L.ijbc : List Nat := [8, 9, 1, 2]
def L.ijbcad : List Nat := [8, 9, 1, 2, 0, 3]
def L.ijbcaf : List Nat := [8, 9, 1, 2, 0, 5]
def L.ijbcda : List Nat := [8, 9, 1, 2, 3, 0]
def L.ijbd : List Nat := [8, 9, 1, 3]
def L.ijbdac : List Nat := [8, 9, 1, 3, 0, 2]
def L.ijbdca : List Nat := [8, 9, 1, 3, 2, 0]
def L.ijbf : List Nat := [8, 9, 1, 5]
def L.ijcabd : List Nat := [8, 9, 2, 0, 1, 3]
def L.ijcabf : List Nat := [8, 9, 2, 0, 1, 5]
def L.ijcadb : List Nat := [8, 9, 2, 0, 3, 1]
def L.ijcbad : List Nat := [8, 9, 2, 1, 0, 3]
def L.ijcbaf : List Nat := [8, 9, 2, 1, 0, 5]
def L.ijcbda : List Nat := [8, 9, 2, 1, 3, 0]
def L.ijcd : List Nat := [8, 9, 2, 3]
def L.ijcdab : List Nat := [8, 9, 2, 3, 0, 1]
def L.ijcdba : List Nat := [8, 9, 2, 3, 1, 0]
def L.ijce : List Nat := [8, 9, 2, 4]
def L.ijdabc : List Nat := [8, 9, 3, 0, 1, 2]
def L.ijdacb : List Nat := [8, 9, 3, 0, 2, 1]
def L.ijdbac : List Nat := [8, 9, 3, 1, 0, 2]
def L.ijdbca : List Nat := [8, 9, 3, 1, 2, 0]
def L.ijdcab : List Nat := [8, 9, 3, 2, 0, 1]
def L.ijdcba : List Nat := [8, 9, 3, 2, 1, 0]
def L.ijde : List Nat := [8, 9, 3, 4]
def L.ijef : List Nat := [8, 9, 4, 5]
def L.ijfb : List Nat := [8, 9, 5, 1]
def L.ijgh : List Nat := [8, 9, 6, 7]
def L.ijij : List Nat := [8, 9, 8, 9]
def L.ijkabc : List Nat := [8, 9, 10, 0, 1, 2]
def L.ijkabe : List Nat := [8, 9, 10, 0, 1, 4]
def L.ijkacb : List Nat := [8, 9, 10, 0, 2, 1]
def L.ijkacd : List Nat := [8, 9, 10, 0, 2, 3]
def L.ijkade : List Nat := [8, 9, 10, 0, 3, 4]
def L.ijkb : List Nat := [8, 9, 10, 1]
def L.ijkbac : List Nat := [8, 9, 10, 1, 0, 2]
def L.ijkbca : List Nat := [8, 9, 10, 1, 2, 0]
def L.ijkbcd : List Nat := [8, 9, 10, 1, 2, 3]
def L.ijkbce : List Nat := [8, 9, 10, 1, 2, 4]
def L.ijkbde : List Nat := [8, 9, 10, 1, 3, 4]
def L.ijkcab : List Nat := [8, 9, 10, 2, 0, 1]
def L.ijkcba : List Nat := [8, 9, 10, 2, 1, 0]
def L.ijkcde : List Nat := [8, 9, 10, 2, 3, 4]
def L.ijkl : List Nat := [8, 9, 10, 11]
def L.ijklabcd : List Nat := [8, 9, 10, 11, 0, 1, 2, 3]
def L.ijklabce : List Nat := [8, 9, 10, 11, 0, 1, 2, 4]
def L.ijklabcf : List Nat := [8, 9, 10, 11, 0, 1, 2, 5]
def L.ijklabcg : List Nat := [8, 9, 10, 11, 0, 1, 2, 6]
def L.ijklabch : List Nat := [8, 9, 10, 11, 0, 1, 2, 7]
def L.ijklabco : List Nat := [8, 9, 10, 11, 0, 1, 2, 14]
def L.ijklabdc : List Nat := [8, 9, 10, 11, 0, 1, 3, 2]
def L.ijklabde : List Nat := [8, 9, 10, 11, 0, 1, 3, 4]
def L.ijklabdf : List Nat := [8, 9, 10, 11, 0, 1, 3, 5]
def L.ijklabdg : List Nat := [8, 9, 10, 11, 0, 1, 3, 6]
def L.ijklabdh : List Nat := [8, 9, 10, 11, 0, 1, 3, 7]
def L.ijklabdo : List Nat := [8, 9, 10, 11, 0, 1, 3, 14]
def L.ijklabef : List Nat := [8, 9, 10, 11, 0, 1, 4, 5]
def L.ijklabeg : List Nat := [8, 9, 10, 11, 0, 1, 4, 6]
def L.ijklabgh : List Nat := [8, 9, 10, 11, 0, 1, 6, 7]
def L.ijklacbd : List Nat := [8, 9, 10, 11, 0, 2, 1, 3]
def L.ijklacdb : List Nat := [8, 9, 10, 11, 0, 2, 3, 1]
def L.ijklacgh : List Nat := [8, 9, 10, 11, 0, 2, 6, 7]
def L.ijkladbc : List Nat := [8, 9, 10, 11, 0, 3, 1, 2]
def L.ijkladcb : List Nat := [8, 9, 10, 11, 0, 3, 2, 1]
def L.ijkladgh : List Nat := [8, 9, 10, 11, 0, 3, 6, 7]
def L.ijklagho : List Nat := [8, 9, 10, 11, 0, 6, 7, 14]
def L.ijklbacd : List Nat := [8, 9, 10, 11, 1, 0, 2, 3]
def L.ijklbadc : List Nat := [8, 9, 10, 11, 1, 0, 3, 2]
def L.ijklbcad : List Nat := [8, 9, 10, 11, 1, 2, 0, 3]
def L.ijklbcda : List Nat := [8, 9, 10, 11, 1, 2, 3, 0]
def L.ijklbcde : List Nat := [8, 9, 10, 11, 1, 2, 3, 4]
def L.ijklbcdf : List Nat := [8, 9, 10, 11, 1, 2, 3, 5]
def L.ijklbcdg : List Nat := [8, 9, 10, 11, 1, 2, 3, 6]
def L.ijklbdac : List Nat := [8, 9, 10, 11, 1, 3, 0, 2]
def L.ijklbdca : List Nat := [8, 9, 10, 11, 1, 3, 2, 0]
def L.ijklcabd : List Nat := [8, 9, 10, 11, 2, 0, 1, 3]
def L.ijklcadb : List Nat := [8, 9, 10, 11, 2, 0, 3, 1]
def L.ijklcbad : List Nat := [8, 9, 10, 11, 2, 1, 0, 3]
def L.ijklcbda : List Nat := [8, 9, 10, 11, 2, 1, 3, 0]
def L.ijklcdab : List Nat := [8, 9, 10, 11, 2, 3, 0, 1]
def L.ijklcdba : List Nat := [8, 9, 10, 11, 2, 3, 1, 0]
def L.ijklcdef : List Nat := [8, 9, 10, 11, 2, 3, 4, 5]
def L.ijklcdeg : List Nat := [8, 9, 10, 11, 2, 3, 4, 6]
def L.ijkldabc : List Nat := [8, 9, 10, 11, 3, 0, 1, 2]
def L.ijkldacb : List Nat := [8, 9, 10, 11, 3, 0, 2, 1]
def L.ijkldbac : List Nat := [8, 9, 10, 11, 3, 1, 0, 2]
def L.ijkldbca : List Nat := [8, 9, 10, 11, 3, 1, 2, 0]
def L.ijkldcab : List Nat := [8, 9, 10, 11, 3, 2, 0, 1]
def L.ijkldcba : List Nat := [8, 9, 10, 11, 3, 2, 1, 0]
def L.ijklghop : List Nat := [8, 9, 10, 11, 6, 7, 14, 15]
def L.ijkmabcd : List Nat := [8, 9, 10, 12, 0, 1, 2, 3]
def L.ijkmabce : List Nat := [8, 9, 10, 12, 0, 1, 2, 4]
def L.ijkmabef : List Nat := [8, 9, 10, 12, 0, 1, 4, 5]
def L.ijlabd : List Nat := [8, 9, 11, 0, 1, 3]
def L.ijlabe : List Nat := [8, 9, 11, 0, 1, 4]
def L.ijlade : List Nat := [8, 9, 11, 0, 3, 4]
def L.ijlbcd : List Nat := [8, 9, 11, 1, 2, 3]
def L.ijlcde : List Nat := [8, 9, 11, 2, 3, 4]
def L.ijlkabcd : List Nat := [8, 9, 11, 10, 0, 1, 2, 3]
def L.ijlkabdc : List Nat := [8, 9, 11, 10, 0, 1, 3, 2]
def L.ijlkacbd : List Nat := [8, 9, 11, 10, 0, 2, 1, 3]
def L.ijlkacdb : List Nat := [8, 9, 11, 10, 0, 2, 3, 1]
def L.ijlkadbc : List Nat := [8, 9, 11, 10, 0, 3, 1, 2]
def L.ijlkadcb : List Nat := [8, 9, 11, 10, 0, 3, 2, 1]
def L.ijlkbacd : List Nat := [8, 9, 11, 10, 1, 0, 2, 3]
def L.ijlkbadc : List Nat := [8, 9, 11, 10, 1, 0, 3, 2]
def L.ijlkbcad : List Nat := [8, 9, 11, 10, 1, 2, 0, 3]
def L.ijlkbcda : List Nat := [8, 9, 11, 10, 1, 2, 3, 0]
def L.ijlkbdac : List Nat := [8, 9, 11, 10, 1, 3, 0, 2]
def L.ijlkbdca : List Nat := [8, 9, 11, 10, 1, 3, 2, 0]
def L.ijlkcabd : List Nat := [8, 9, 11, 10, 2, 0, 1, 3]
def L.ijlkcadb : List Nat := [8, 9, 11, 10, 2, 0, 3, 1]
def L.ijlkcbad : List Nat := [8, 9, 11, 10, 2, 1, 0, 3]
def L.ijlkcbda : List Nat := [8, 9, 11, 10, 2, 1, 3, 0]
def L.ijlkcdab : List Nat := [8, 9, 11, 10, 2, 3, 0, 1]
def L.ijlkcdba : List Nat := [8, 9, 11, 10, 2, 3, 1, 0]
def L.ijlkdabc : List Nat := [8, 9, 11, 10, 3, 0, 1, 2]
def L.ijlkdacb : List Nat := [8, 9, 11, 10, 3, 0, 2, 1]
def L.ijlkdbac : List Nat := [8, 9, 11, 10, 3, 1, 0, 2]
def L.ijlkdbca : List Nat := [8, 9, 11, 10, 3, 1, 2, 0]
def L.ijlkdcab : List Nat := [8, 9, 11, 10, 3, 2, 0, 1]
def L.ijlkdcba : List Nat := [8, 9, 11, 10, 3, 2, 1, 0]
def L.ijln : List Nat := [8, 9, 11, 13]
def L.ijmabc : List Nat := [8, 9, 12, 0, 1, 2]
def L.ijmabd : List Nat := [8, 9, 12, 0, 1, 3]
def L.ijmabf : List Nat := [8, 9, 12, 0, 1, 5]
def L.ijmacd : List Nat := [8, 9, 12, 0, 2, 3]
def L.ijmaef : List Nat := [8, 9, 12, 0, 4, 5]
def L.ijmb : List Nat := [8, 9, 12, 1]
def L.ijmbcd : List Nat := [8, 9, 12, 1, 2, 3]
def L.ijmbef : List Nat := [8, 9, 12, 1, 4, 5]
def L.ijmc : List Nat := [8, 9, 12, 2]
def L.ijmdef : List Nat := [8, 9, 12, 3, 4, 5]
def L.ijmn : List Nat := [8, 9, 12, 13]
def L.ijmnabcd : List Nat := [8, 9, 12, 13, 0, 1, 2, 3]
def L.ijmnabce : List Nat := [8, 9, 12, 13, 0, 1, 2, 4]
def L.ijmnabef : List Nat := [8, 9, 12, 13, 0, 1, 4, 5]
def L.ijnabe : List Nat := [8, 9, 13, 0, 1, 4]
def L.ijnbde : List Nat := [8, 9, 13, 1, 3, 4]
def L.ijncde : List Nat := [8, 9, 13, 2, 3, 4]
def L.ik : List Nat := [8, 10]
def L.ikab : List Nat := [8, 10, 0, 1]
def L.ikac : List Nat := [8, 10, 0, 2]
def L.ikbc : List Nat := [8, 10, 1, 2]
def L.ikcd : List Nat := [8, 10, 2, 3]
def L.ikjabc : List Nat := [8, 10, 9, 0, 1, 2]
def L.ikjacb : List Nat := [8, 10, 9, 0, 2, 1]
def L.ikjbac : List Nat := [8, 10, 9, 1, 0, 2]
def L.ikjbca : List Nat := [8, 10, 9, 1, 2, 0]
def L.ikjcab : List Nat := [8, 10, 9, 2, 0, 1]
def L.ikjcba : List Nat := [8, 10, 9, 2, 1, 0]
def L.ikjlabcd : List Nat := [8, 10, 9, 11, 0, 1, 2, 3]
def L.ikjlabdc : List Nat := [8, 10, 9, 11, 0, 1, 3, 2]
def L.ikjlacbd : List Nat := [8, 10, 9, 11, 0, 2, 1, 3]
def L.ikjlacdb : List Nat := [8, 10, 9, 11, 0, 2, 3, 1]
def L.ikjladbc : List Nat := [8, 10, 9, 11, 0, 3, 1, 2]
def L.ikjladcb : List Nat := [8, 10, 9, 11, 0, 3, 2, 1]
def L.ikjlbacd : List Nat := [8, 10, 9, 11, 1, 0, 2, 3]
def L.ikjlbadc : List Nat := [8, 10, 9, 11, 1, 0, 3, 2]
def L.ikjlbcad : List Nat := [8, 10, 9, 11, 1, 2, 0, 3]
def L.ikjlbcda : List Nat := [8, 10, 9, 11, 1, 2, 3, 0]
def L.ikjlbdac : List Nat := [8, 10, 9, 11, 1, 3, 0, 2]
def L.ikjlbdca : List Nat := [8, 10, 9, 11, 1, 3, 2, 0]
def L.ikjlcabd : List Nat := [8, 10, 9, 11, 2, 0, 1, 3]
def L.ikjlcadb : List Nat := [8, 10, 9, 11, 2, 0, 3, 1]
def L.ikjlcbad : List Nat := [8, 10, 9, 11, 2, 1, 0, 3]
def L.ikjlcbda : List Nat := [8, 10, 9, 11, 2, 1, 3, 0]
def L.ikjlcdab : List Nat := [8, 10, 9, 11, 2, 3, 0, 1]
def L.ikjlcdba : List Nat := [8, 10, 9, 11, 2, 3, 1, 0]
def L.ikjldabc : List Nat := [8, 10, 9, 11, 3, 0, 1, 2]
def L.ikjldacb : List Nat := [8, 10, 9, 11, 3, 0, 2, 1]
def L.ikjldbac : List Nat := [8, 10, 9, 11, 3, 1, 0, 2]
def L.ikjldbca : List Nat := [8, 10, 9, 11, 3, 1, 2, 0]
def L.ikjldcab : List Nat := [8, 10, 9, 11, 3, 2, 0, 1]
def L.ikjldcba : List Nat := [8, 10, 9, 11, 3, 2, 1, 0]
def L.iklabc : List Nat := [8, 10, 11, 0, 1, 2]
def L.iklabe : List Nat := [8, 10, 11, 0, 1, 4]
def L.iklade : List Nat := [8, 10, 11, 0, 3, 4]
def L.iklcde : List Nat := [8, 10, 11, 2, 3, 4]
def L.ikljabcd : List Nat := [8, 10, 11, 9, 0, 1, 2, 3]
def L.ikljabdc : List Nat := [8, 10, 11, 9, 0, 1, 3, 2]
def L.ikljacbd : List Nat := [8, 10, 11, 9, 0, 2, 1, 3]
def L.ikljacdb : List Nat := [8, 10, 11, 9, 0, 2, 3, 1]
def L.ikljadbc : List Nat := [8, 10, 11, 9, 0, 3, 1, 2]
def L.ikljadcb : List Nat := [8, 10, 11, 9, 0, 3, 2, 1]
def L.ikljbacd : List Nat := [8, 10, 11, 9, 1, 0, 2, 3]
def L.ikljbadc : List Nat := [8, 10, 11, 9, 1, 0, 3, 2]
def L.ikljbcad : List Nat := [8, 10, 11, 9, 1, 2, 0, 3]
def L.ikljbcda : List Nat := [8, 10, 11, 9, 1, 2, 3, 0]
def L.ikljbdac : List Nat := [8, 10, 11, 9, 1, 3, 0, 2]
def L.ikljbdca : List Nat := [8, 10, 11, 9, 1, 3, 2, 0]
def L.ikljcabd : List Nat := [8, 10, 11, 9, 2, 0, 1, 3]
def L.ikljcadb : List Nat := [8, 10, 11, 9, 2, 0, 3, 1]
def L.ikljcbad : List Nat := [8, 10, 11, 9, 2, 1, 0, 3]
def L.ikljcbda : List Nat := [8, 10, 11, 9, 2, 1, 3, 0]
def L.ikljcdab : List Nat := [8, 10, 11, 9, 2, 3, 0, 1]
def L.ikljcdba : List Nat := [8, 10, 11, 9, 2, 3, 1, 0]
def L.ikljdabc : List Nat := [8, 10, 11, 9, 3, 0, 1, 2]
def L.ikljdacb : List Nat := [8, 10, 11, 9, 3, 0, 2, 1]
def L.ikljdbac : List Nat := [8, 10, 11, 9, 3, 1, 0, 2]
def L.ikljdbca : List Nat := [8, 10, 11, 9, 3, 1, 2, 0]
def L.ikljdcab : List Nat := [8, 10, 11, 9, 3, 2, 0, 1]
def L.ikljdcba : List Nat := [8, 10, 11, 9, 3, 2, 1, 0]
def L.il : List Nat := [8, 11]
def L.ilab : List Nat := [8, 11, 0, 1]
def L.ilad : List Nat := [8, 11, 0, 3]
def L.ilbc : List Nat := [8, 11, 1, 2]
def L.ilde : List Nat := [8, 11, 3, 4]
def L.iljkabcd : List Nat := [8, 11, 9, 10, 0, 1, 2, 3]
def L.iljkabdc : List Nat := [8, 11, 9, 10, 0, 1, 3, 2]
def L.iljkacbd : List Nat := [8, 11, 9, 10, 0, 2, 1, 3]
def L.iljkacdb : List Nat := [8, 11, 9, 10, 0, 2, 3, 1]
def L.iljkadbc : List Nat := [8, 11, 9, 10, 0, 3, 1, 2]
def L.iljkadcb : List Nat := [8, 11, 9, 10, 0, 3, 2, 1]
def L.iljkbacd : List Nat := [8, 11, 9, 10, 1, 0, 2, 3]
def L.iljkbadc : List Nat := [8, 11, 9, 10, 1, 0, 3, 2]
def L.iljkbcad : List Nat := [8, 11, 9, 10, 1, 2, 0, 3]
def L.iljkbcda : List Nat := [8, 11, 9, 10, 1, 2, 3, 0]
def L.iljkbdac : List Nat := [8, 11, 9, 10, 1, 3, 0, 2]
def L.iljkbdca : List Nat := [8, 11, 9, 10, 1, 3, 2, 0]
def L.iljkcabd : List Nat := [8, 11, 9, 10, 2, 0, 1, 3]
def L.iljkcadb : List Nat := [8, 11, 9, 10, 2, 0, 3, 1]
def L.iljkcbad : List Nat := [8, 11, 9, 10, 2, 1, 0, 3]
def L.iljkcbda : List Nat := [8, 11, 9, 10, 2, 1, 3, 0]
def L.iljkcdab : List Nat := [8, 11, 9, 10, 2, 3, 0, 1]
def L.iljkcdba : List Nat := [8, 11, 9, 10, 2, 3, 1, 0]
def L.iljkdabc : List Nat := [8, 11, 9, 10, 3, 0, 1, 2]
def L.iljkdacb : List Nat := [8, 11, 9, 10, 3, 0, 2, 1]
def L.iljkdbac : List Nat := [8, 11, 9, 10, 3, 1, 0, 2]
def L.iljkdbca : List Nat := [8, 11, 9, 10, 3, 1, 2, 0]
def L.iljkdcab : List Nat := [8, 11, 9, 10, 3, 2, 0, 1]
def L.iljkdcba : List Nat := [8, 11, 9, 10, 3, 2, 1, 0]
def L.ilka : List Nat := [8, 11, 10, 0]
def L.ilkc : List Nat := [8, 11, 10, 2]
def L.ilkjabcd : List Nat := [8, 11, 10, 9, 0, 1, 2, 3]
def L.ilkjabdc : List Nat := [8, 11, 10, 9, 0, 1, 3, 2]
def L.ilkjacbd : List Nat := [8, 11, 10, 9, 0, 2, 1, 3]
def L.ilkjacdb : List Nat := [8, 11, 10, 9, 0, 2, 3, 1]
def L.ilkjadbc : List Nat := [8, 11, 10, 9, 0, 3, 1, 2]
def L.ilkjadcb : List Nat := [8, 11, 10, 9, 0, 3, 2, 1]
def L.ilkjbacd : List Nat := [8, 11, 10, 9, 1, 0, 2, 3]
def L.ilkjbadc : List Nat := [8, 11, 10, 9, 1, 0, 3, 2]
def L.ilkjbcad : List Nat := [8, 11, 10, 9, 1, 2, 0, 3]
def L.ilkjbcda : List Nat := [8, 11, 10, 9, 1, 2, 3, 0]
def L.ilkjbdac : List Nat := [8, 11, 10, 9, 1, 3, 0, 2]
def L.ilkjbdca : List Nat := [8, 11, 10, 9, 1, 3, 2, 0]
def L.ilkjcabd : List Nat := [8, 11, 10, 9, 2, 0, 1, 3]
def L.ilkjcadb : List Nat := [8, 11, 10, 9, 2, 0, 3, 1]
def L.ilkjcbad : List Nat := [8, 11, 10, 9, 2, 1, 0, 3]
def L.ilkjcbda : List Nat := [8, 11, 10, 9, 2, 1, 3, 0]
def L.ilkjcdab : List Nat := [8, 11, 10, 9, 2, 3, 0, 1]
def L.ilkjcdba : List Nat := [8, 11, 10, 9, 2, 3, 1, 0]
def L.ilkjdabc : List Nat := [8, 11, 10, 9, 3, 0, 1, 2]
def L.ilkjdacb : List Nat := [8, 11, 10, 9, 3, 0, 2, 1]
def L.ilkjdbac : List Nat := [8, 11, 10, 9, 3, 1, 0, 2]
def L.ilkjdbca : List Nat := [8, 11, 10, 9, 3, 1, 2, 0]
def L.ilkjdcab : List Nat := [8, 11, 10, 9, 3, 2, 0, 1]
def L.ilkjdcba : List Nat := [8, 11, 10, 9, 3, 2, 1, 0]
def L.ilmabc : List Nat := [8, 11, 12, 0, 1, 2]
def L.ilmabd : List Nat := [8, 11, 12, 0, 1, 3]
def L.ilmacd : List Nat := [8, 11, 12, 0, 2, 3]
def L.im : List Nat := [8, 12]
def L.imab : List Nat := [8, 12, 0, 1]
def L.imae : List Nat := [8, 12, 0, 4]
def L.imbc : List Nat := [8, 12, 1, 2]
def L.imbd : List Nat := [8, 12, 1, 3]
def L.imcd : List Nat := [8, 12, 2, 3]
def L.imde : List Nat := [8, 12, 3, 4]
def L.imef : List Nat := [8, 12, 4, 5]
def L.imnabcde : List Nat := [8, 12, 13, 0, 1, 2, 3, 4]
def L.imnabe : List Nat := [8, 12, 13, 0, 1, 4]
def L.imnbde : List Nat := [8, 12, 13, 1, 3, 4]
def L.imncde : List Nat := [8, 12, 13, 2, 3, 4]
def L.in : List Nat := [8, 13]
def L.ja : List Nat := [9, 0]
def L.jabc : List Nat := [9, 0, 1, 2]
def L.jabi : List Nat := [9, 0, 1, 8]
def L.jacb : List Nat := [9, 0, 2, 1]
def L.jb : List Nat := [9, 1]
def L.jc : List Nat := [9, 2]
def L.jcab : List Nat := [9, 2, 0, 1]
def L.jckb : List Nat := [9, 2, 10, 1]
def L.jckl : List Nat := [9, 2, 10, 11]
def L.jckn : List Nat := [9, 2, 10, 13]
def L.jcln : List Nat := [9, 2, 11, 13]
def L.jcmb : List Nat := [9, 2, 12, 1]
def L.jcme : List Nat := [9, 2, 12, 4]
def L.jcmn : List Nat := [9, 2, 12, 13]
def L.jd : List Nat := [9, 3]
def L.jdke : List Nat := [9, 3, 10, 4]
def L.jdkn : List Nat := [9, 3, 10, 13]
def L.jdle : List Nat := [9, 3, 11, 4]
def L.jdln : List Nat := [9, 3, 11, 13]
def L.jdmn : List Nat := [9, 3, 12, 13]
def L.je : List Nat := [9, 4]
def L.jeab : List Nat := [9, 4, 0, 1]
def L.jebc : List Nat := [9, 4, 1, 2]
def L.jecd : List Nat := [9, 4, 2, 3]
def L.jekb : List Nat := [9, 4, 10, 1]
def L.jekl : List Nat := [9, 4, 10, 11]
def L.jekn : List Nat := [9, 4, 10, 13]
def L.jelb : List Nat := [9, 4, 11, 1]
def L.jeln : List Nat := [9, 4, 11, 13]
def L.jfgh : List Nat := [9, 5, 6, 7]
def L.ji : List Nat := [9, 8]
def L.jiab : List Nat := [9, 8, 0, 1]
def L.jiabcd : List Nat := [9, 8, 0, 1, 2, 3]
def L.jiabcf : List Nat := [9, 8, 0, 1, 2, 5]
def L.jiabdc : List Nat := [9, 8, 0, 1, 3, 2]
def L.jiacbd : List Nat := [9, 8, 0, 2, 1, 3]
def L.jiacbf : List Nat := [9, 8, 0, 2, 1, 5]
def L.jiacdb : List Nat := [9, 8, 0, 2, 3, 1]
def L.jiadbc : List Nat := [9, 8, 0, 3, 1, 2]
def L.jiadcb : List Nat := [9, 8, 0, 3, 2, 1]
def L.jiba : List Nat := [9, 8, 1, 0]
def L.jibacd : List Nat := [9, 8, 1, 0, 2, 3]
def L.jibacf : List Nat := [9, 8, 1, 0, 2, 5]
def L.jibadc : List Nat := [9, 8, 1, 0, 3, 2]
def L.jibcad : List Nat := [9, 8, 1, 2, 0, 3]
def L.jibcaf : List Nat := [9, 8, 1, 2, 0, 5]
def L.jibcda : List Nat := [9, 8, 1, 2, 3, 0]
def L.jibdac : List Nat := [9, 8, 1, 3, 0, 2]
def L.jibdca : List Nat := [9, 8, 1, 3, 2, 0]
def L.jicabd : List Nat := [9, 8, 2, 0, 1, 3]
def L.jicabf : List Nat := [9, 8, 2, 0, 1, 5]
def L.jicadb : List Nat := [9, 8, 2, 0, 3, 1]
def L.jicbad : List Nat := [9, 8, 2, 1, 0, 3]
def L.jicbaf : List Nat := [9, 8, 2, 1, 0, 5]
def L.jicbda : List Nat := [9, 8, 2, 1, 3, 0]
def L.jicdab : List Nat := [9, 8, 2, 3, 0, 1]
def L.jicdba : List Nat := [9, 8, 2, 3, 1, 0]
def L.jidabc : List Nat := [9, 8, 3, 0, 1, 2]
def L.jidacb : List Nat := [9, 8, 3, 0, 2, 1]
def L.jidbac : List Nat := [9, 8, 3, 1, 0, 2]
def L.jidbca : List Nat := [9, 8, 3, 1, 2, 0]
def L.jidcab : List Nat := [9, 8, 3, 2, 0, 1]
def L.jidcba : List Nat := [9, 8, 3, 2, 1, 0]
def L.jiji : List Nat := [9, 8, 9, 8]
def L.jikabc : List Nat := [9, 8, 10, 0, 1, 2]
def L.jikacb : List Nat := [9, 8, 10, 0, 2, 1]
def L.jikbac : List Nat := [9, 8, 10, 1, 0, 2]
def L.jikbca : List Nat := [9, 8, 10, 1, 2, 0]
def L.jikcab : List Nat := [9, 8, 10, 2, 0, 1]
def L.jikcba : List Nat := [9, 8, 10, 2, 1, 0]
def L.jiklabcd : List Nat := [9, 8, 10, 11, 0, 1, 2, 3]
def L.jiklabdc : List Nat := [9, 8, 10, 11, 0, 1, 3, 2]
def L.jiklacbd : List Nat := [9, 8, 10, 11, 0, 2, 1, 3]
def L.jiklacdb : List Nat := [9, 8, 10, 11, 0, 2, 3, 1]
def L.jikladbc : List Nat := [9, 8, 10, 11, 0, 3, 1, 2]
def L.jikladcb : List Nat := [9, 8, 10, 11, 0, 3, 2, 1]
def L.jiklbacd : List Nat := [9, 8, 10, 11, 1, 0, 2, 3]
def L.jiklbadc : List Nat := [9, 8, 10, 11, 1, 0, 3, 2]
def L.jiklbcad : List Nat := [9, 8, 10, 11, 1, 2, 0, 3]
def L.jiklbcda : List Nat := [9, 8, 10, 11, 1, 2, 3, 0]
def L.jiklbdac : List Nat := [9, 8, 10, 11, 1, 3, 0, 2]
def L.jiklbdca : List Nat := [9, 8, 10, 11, 1, 3, 2, 0]
def L.jiklcabd : List Nat := [9, 8, 10, 11, 2, 0, 1, 3]
def L.jiklcadb : List Nat := [9, 8, 10, 11, 2, 0, 3, 1]
def L.jiklcbad : List Nat := [9, 8, 10, 11, 2, 1, 0, 3]
def L.jiklcbda : List Nat := [9, 8, 10, 11, 2, 1, 3, 0]
def L.jiklcdab : List Nat := [9, 8, 10, 11, 2, 3, 0, 1]
def L.jiklcdba : List Nat := [9, 8, 10, 11, 2, 3, 1, 0]
def L.jikldabc : List Nat := [9, 8, 10, 11, 3, 0, 1, 2]
def L.jikldacb : List Nat := [9, 8, 10, 11, 3, 0, 2, 1]
def L.jikldbac : List Nat := [9, 8, 10, 11, 3, 1, 0, 2]
def L.jikldbca : List Nat := [9, 8, 10, 11, 3, 1, 2, 0]
def L.jikldcab : List Nat := [9, 8, 10, 11, 3, 2, 0, 1]
def L.jikldcba : List Nat := [9, 8, 10, 11, 3, 2, 1, 0]
def L.jilkabcd : List Nat := [9, 8, 11, 10, 0, 1, 2, 3]
def L.jilkabdc : List Nat := [9, 8, 11, 10, 0, 1, 3, 2]
def L.jilkacbd : List Nat := [9, 8, 11, 10, 0, 2, 1, 3]
def L.jilkacdb : List Nat := [9, 8, 11, 10, 0, 2, 3, 1]
def L.jilkadbc : List Nat := [9, 8, 11, 10, 0, 3, 1, 2]
def L.jilkadcb : List Nat := [9, 8, 11, 10, 0, 3, 2, 1]
def L.jilkbacd : List Nat := [9, 8, 11, 10, 1, 0, 2, 3]
def L.jilkbadc : List Nat := [9, 8, 11, 10, 1, 0, 3, 2]
def L.jilkbcad : List Nat := [9, 8, 11, 10, 1, 2, 0, 3]
def L.jilkbcda : List Nat := [9, 8, 11, 10, 1, 2, 3, 0]
def L.jilkbdac : List Nat := [9, 8, 11, 10, 1, 3, 0, 2]
def L.jilkbdca : List Nat := [9, 8, 11, 10, 1, 3, 2, 0]
def L.jilkcabd : List Nat := [9, 8, 11, 10, 2, 0, 1, 3]
def L.jilkcadb : List Nat := [9, 8, 11, 10, 2, 0, 3, 1]
def L.jilkcbad : List Nat := [9, 8, 11, 10, 2, 1, 0, 3]
def L.jilkcbda : List Nat := [9, 8, 11, 10, 2, 1, 3, 0]
def L.jilkcdab : List Nat := [9, 8, 11, 10, 2, 3, 0, 1]
def L.jilkcdba : List Nat := [9, 8, 11, 10, 2, 3, 1, 0]
def L.jilkdabc : List Nat := [9, 8, 11, 10, 3, 0, 1, 2]
def L.jilkdacb : List Nat := [9, 8, 11, 10, 3, 0, 2, 1]
def L.jilkdbac : List Nat := [9, 8, 11, 10, 3, 1, 0, 2]
def L.jilkdbca : List Nat := [9, 8, 11, 10, 3, 1, 2, 0]
def L.jilkdcab : List Nat := [9, 8, 11, 10, 3, 2, 0, 1]
def L.jilkdcba : List Nat := [9, 8, 11, 10, 3, 2, 1, 0]
def L.jimn : List Nat := [9, 8, 12, 13]
def L.jjaa : List Nat := [9, 9, 0, 0]
def L.jkab : List Nat := [9, 10, 0, 1]
def L.jkac : List Nat := [9, 10, 0, 2]
def L.jkad : List Nat := [9, 10, 0, 3]
def L.jkae : List Nat := [9, 10, 0, 4]
def L.jkbc : List Nat := [9, 10, 1, 2]
def L.jkbe : List Nat := [9, 10, 1, 4]
def L.jkbf : List Nat := [9, 10, 1, 5]
def L.jkbi : List Nat := [9, 10, 1, 8]
def L.jkcb : List Nat := [9, 10, 2, 1]
def L.jkcd : List Nat := [9, 10, 2, 3]
def L.jkce : List Nat := [9, 10, 2, 4]
def L.jkde : List Nat := [9, 10, 3, 4]
def L.jkef : List Nat := [9, 10, 4, 5]
def L.jkfb : List Nat := [9, 10, 5, 1]
def L.jkfg : List Nat := [9, 10, 5, 6]
def L.jkiabc : List Nat := [9, 10, 8, 0, 1, 2]
def L.jkiacb : List Nat := [9, 10, 8, 0, 2, 1]
def L.jkib : List Nat := [9, 10, 8, 1]
def L.jkibac : List Nat := [9, 10, 8, 1, 0, 2]
def L.jkibca : List Nat := [9, 10, 8, 1, 2, 0]
def L.jkicab : List Nat := [9, 10, 8, 2, 0, 1]
def L.jkicba : List Nat := [9, 10, 8, 2, 1, 0]
def L.jkilabcd : List Nat := [9, 10, 8, 11, 0, 1, 2, 3]
def L.jkilabdc : List Nat := [9, 10, 8, 11, 0, 1, 3, 2]
def L.jkilacbd : List Nat := [9, 10, 8, 11, 0, 2, 1, 3]
def L.jkilacdb : List Nat := [9, 10, 8, 11, 0, 2, 3, 1]
def L.jkiladbc : List Nat := [9, 10, 8, 11, 0, 3, 1, 2]
def L.jkiladcb : List Nat := [9, 10, 8, 11, 0, 3, 2, 1]
def L.jkilbacd : List Nat := [9, 10, 8, 11, 1, 0, 2, 3]
def L.jkilbadc : List Nat := [9, 10, 8, 11, 1, 0, 3, 2]
def L.jkilbcad : List Nat := [9, 10, 8, 11, 1, 2, 0, 3]
def L.jkilbcda : List Nat := [9, 10, 8, 11, 1, 2, 3, 0]
def L.jkilbdac : List Nat := [9, 10, 8, 11, 1, 3, 0, 2]
def L.jkilbdca : List Nat := [9, 10, 8, 11, 1, 3, 2, 0]
def L.jkilcabd : List Nat := [9, 10, 8, 11, 2, 0, 1, 3]
def L.jkilcadb : List Nat := [9, 10, 8, 11, 2, 0, 3, 1]
def L.jkilcbad : List Nat := [9, 10, 8, 11, 2, 1, 0, 3]
def L.jkilcbda : List Nat := [9, 10, 8, 11, 2, 1, 3, 0]
def L.jkilcdab : List Nat := [9, 10, 8, 11, 2, 3, 0, 1]
def L.jkilcdba : List Nat := [9, 10, 8, 11, 2, 3, 1, 0]
def L.jkildabc : List Nat := [9, 10, 8, 11, 3, 0, 1, 2]
def L.jkildacb : List Nat := [9, 10, 8, 11, 3, 0, 2, 1]
def L.jkildbac : List Nat := [9, 10, 8, 11, 3, 1, 0, 2]
def L.jkildbca : List Nat := [9, 10, 8, 11, 3, 1, 2, 0]
def L.jkildcab : List Nat := [9, 10, 8, 11, 3, 2, 0, 1]
def L.jkildcba : List Nat := [9, 10, 8, 11, 3, 2, 1, 0]
def L.jklabc : List Nat := [9, 10, 11, 0, 1, 2]
def L.jklabd : List Nat := [9, 10, 11, 0, 1, 3]
def L.jklabe : List Nat := [9, 10, 11, 0, 1, 4]
def L.jklbcf : List Nat := [9, 10, 11, 1, 2, 5]
def L.jklc : List Nat := [9, 10, 11, 2]
def L.jklcef : List Nat := [9, 10, 11, 2, 4, 5]
def L.jkldghop : List Nat := [9, 10, 11, 3, 6, 7, 14, 15]
def L.jklfghop : List Nat := [9, 10, 11, 5, 6, 7, 14, 15]
def L.jkliabcd : List Nat := [9, 10, 11, 8, 0, 1, 2, 3]
def L.jkliabdc : List Nat := [9, 10, 11, 8, 0, 1, 3, 2]
def L.jkliacbd : List Nat := [9, 10, 11, 8, 0, 2, 1, 3]
def L.jkliacdb : List Nat := [9, 10, 11, 8, 0, 2, 3, 1]
def L.jkliadbc : List Nat := [9, 10, 11, 8, 0, 3, 1, 2]
def L.jkliadcb : List Nat := [9, 10, 11, 8, 0, 3, 2, 1]
def L.jklibacd : List Nat := [9, 10, 11, 8, 1, 0, 2, 3]
def L.jklibadc : List Nat := [9, 10, 11, 8, 1, 0, 3, 2]
def L.jklibcad : List Nat := [9, 10, 11, 8, 1, 2, 0, 3]
def L.jklibcda : List Nat := [9, 10, 11, 8, 1, 2, 3, 0]
def L.jklibdac : List Nat := [9, 10, 11, 8, 1, 3, 0, 2]
def L.jklibdca : List Nat := [9, 10, 11, 8, 1, 3, 2, 0]
def L.jklicabd : List Nat := [9, 10, 11, 8, 2, 0, 1, 3]
def L.jklicadb : List Nat := [9, 10, 11, 8, 2, 0, 3, 1]
def L.jklicbad : List Nat := [9, 10, 11, 8, 2, 1, 0, 3]
def L.jklicbda : List Nat := [9, 10, 11, 8, 2, 1, 3, 0]
def L.jklicdab : List Nat := [9, 10, 11, 8, 2, 3, 0, 1]
def L.jklicdba : List Nat := [9, 10, 11, 8, 2, 3, 1, 0]
def L.jklidabc : List Nat := [9, 10, 11, 8, 3, 0, 1, 2]
def L.jklidacb : List Nat := [9, 10, 11, 8, 3, 0, 2, 1]
def L.jklidbac : List Nat := [9, 10, 11, 8, 3, 1, 0, 2]
def L.jklidbca : List Nat := [9, 10, 11, 8, 3, 1, 2, 0]
def L.jklidcab : List Nat := [9, 10, 11, 8, 3, 2, 0, 1]
def L.jklidcba : List Nat := [9, 10, 11, 8, 3, 2, 1, 0]
def L.jklm : List Nat := [9, 10, 11, 12]
def L.jklmabcd : List Nat := [9, 10, 11, 12, 0, 1, 2, 3]
def L.jklnabcd : List Nat := [9, 10, 11, 13, 0, 1, 2, 3]
def L.jklnbcdf : List Nat := [9, 10, 11, 13, 1, 2, 3, 5]
def L.jklncdef : List Nat := [9, 10, 11, 13, 2, 3, 4, 5]
def L.jkmabc : List Nat := [9, 10, 12, 0, 1, 2]
def L.jkmb : List Nat := [9, 10, 12, 1]
def L.jkmbce : List Nat := [9, 10, 12, 1, 2, 4]
def L.jkmc : List Nat := [9, 10, 12, 2]
def L.jkmcde : List Nat := [9, 10, 12, 2, 3, 4]
def L.jknbcd : List Nat := [9, 10, 13, 1, 2, 3]
def L.jkncde : List Nat := [9, 10, 13, 2, 3, 4]
def L.jlab : List Nat := [9, 11, 0, 1]
def L.jlae : List Nat := [9, 11, 0, 4]
def L.jlbd : List Nat := [9, 11, 1, 3]
def L.jlcd : List Nat := [9, 11, 2, 3]
def L.jlde : List Nat := [9, 11, 3, 4]
def L.jlef : List Nat := [9, 11, 4, 5]
def L.jlikabcd : List Nat := [9, 11, 8, 10, 0, 1, 2, 3]
def L.jlikabdc : List Nat := [9, 11, 8, 10, 0, 1, 3, 2]
def L.jlikacbd : List Nat := [9, 11, 8, 10, 0, 2, 1, 3]
def L.jlikacdb : List Nat := [9, 11, 8, 10, 0, 2, 3, 1]
def L.jlikadbc : List Nat := [9, 11, 8, 10, 0, 3, 1, 2]
def L.jlikadcb : List Nat := [9, 11, 8, 10, 0, 3, 2, 1]
def L.jlikbacd : List Nat := [9, 11, 8, 10, 1, 0, 2, 3]
def L.jlikbadc : List Nat := [9, 11, 8, 10, 1, 0, 3, 2]
def L.jlikbcad : List Nat := [9, 11, 8, 10, 1, 2, 0, 3]
def L.jlikbcda : List Nat := [9, 11, 8, 10, 1, 2, 3, 0]
def L.jlikbdac : List Nat := [9, 11, 8, 10, 1, 3, 0, 2]
def L.jlikbdca : List Nat := [9, 11, 8, 10, 1, 3, 2, 0]
def L.jlikcabd : List Nat := [9, 11, 8, 10, 2, 0, 1, 3]
def L.jlikcadb : List Nat := [9, 11, 8, 10, 2, 0, 3, 1]
def L.jlikcbad : List Nat := [9, 11, 8, 10, 2, 1, 0, 3]
def L.jlikcbda : List Nat := [9, 11, 8, 10, 2, 1, 3, 0]
def L.jlikcdab : List Nat := [9, 11, 8, 10, 2, 3, 0, 1]
def L.jlikcdba : List Nat := [9, 11, 8, 10, 2, 3, 1, 0]
def L.jlikdabc : List Nat := [9, 11, 8, 10, 3, 0, 1, 2]
def L.jlikdacb : List Nat := [9, 11, 8, 10, 3, 0, 2, 1]
def L.jlikdbac : List Nat := [9, 11, 8, 10, 3, 1, 0, 2]
def L.jlikdbca : List Nat := [9, 11, 8, 10, 3, 1, 2, 0]
def L.jlikdcab : List Nat := [9, 11, 8, 10, 3, 2, 0, 1]
def L.jlikdcba : List Nat := [9, 11, 8, 10, 3, 2, 1, 0]
def L.jlkiabcd : List Nat := [9, 11, 10, 8, 0, 1, 2, 3]
def L.jlkiabdc : List Nat := [9, 11, 10, 8, 0, 1, 3, 2]
def L.jlkiacbd : List Nat := [9, 11, 10, 8, 0, 2, 1, 3]
def L.jlkiacdb : List Nat := [9, 11, 10, 8, 0, 2, 3, 1]
def L.jlkiadbc : List Nat := [9, 11, 10, 8, 0, 3, 1, 2]
def L.jlkiadcb : List Nat := [9, 11, 10, 8, 0, 3, 2, 1]
def L.jlkibacd : List Nat := [9, 11, 10, 8, 1, 0, 2, 3]
def L.jlkibadc : List Nat := [9, 11, 10, 8, 1, 0, 3, 2]
def L.jlkibcad : List Nat := [9, 11, 10, 8, 1, 2, 0, 3]
def L.jlkibcda : List Nat := [9, 11, 10, 8, 1, 2, 3, 0]
def L.jlkibdac : List Nat := [9, 11, 10, 8, 1, 3, 0, 2]
def L.jlkibdca : List Nat := [9, 11, 10, 8, 1, 3, 2, 0]
def L.jlkicabd : List Nat := [9, 11, 10, 8, 2, 0, 1, 3]
def L.jlkicadb : List Nat := [9, 11, 10, 8, 2, 0, 3, 1]
def L.jlkicbad : List Nat := [9, 11, 10, 8, 2, 1, 0, 3]
def L.jlkicbda : List Nat := [9, 11, 10, 8, 2, 1, 3, 0]
def L.jlkicdab : List Nat := [9, 11, 10, 8, 2, 3, 0, 1]
def L.jlkicdba : List Nat := [9, 11, 10, 8, 2, 3, 1, 0]
def L.jlkidabc : List Nat := [9, 11, 10, 8, 3, 0, 1, 2]
def L.jlkidacb : List Nat := [9, 11, 10, 8, 3, 0, 2, 1]
def L.jlkidbac : List Nat := [9, 11, 10, 8, 3, 1, 0, 2]
def L.jlkidbca : List Nat := [9, 11, 10, 8, 3, 1, 2, 0]
def L.jlkidcab : List Nat := [9, 11, 10, 8, 3, 2, 0, 1]
def L.jlkidcba : List Nat := [9, 11, 10, 8, 3, 2, 1, 0]
def L.jlmabc : List Nat := [9, 11, 12, 0, 1, 2]
def L.jlmabf : List Nat := [9, 11, 12, 0, 1, 5]
def L.jlmaef : List Nat := [9, 11, 12, 0, 4, 5]
def L.jlmbef : List Nat := [9, 11, 12, 1, 4, 5]
def L.jlmdef : List Nat := [9, 11, 12, 3, 4, 5]
def L.jmbc : List Nat := [9, 12, 1, 2]
def L.jmcd : List Nat := [9, 12, 2, 3]
def L.jmnabe : List Nat := [9, 12, 13, 0, 1, 4]
def L.jmnbde : List Nat := [9, 12, 13, 1, 3, 4]
def L.jmncde : List Nat := [9, 12, 13, 2, 3, 4]
def L.jnab : List Nat := [9, 13, 0, 1]
def L.jnbf : List Nat := [9, 13, 1, 5]
def L.jncd : List Nat := [9, 13, 2, 3]
def L.jnce : List Nat := [9, 13, 2, 4]
def L.jnef : List Nat := [9, 13, 4, 5]
def L.jnfb : List Nat := [9, 13, 5, 1]
def L.jnkm : List Nat := [9, 13, 10, 12]
def L.jnlm : List Nat := [9, 13, 11, 12]
def L.ka : List Nat := [10, 0]
def L.kacd : List Nat := [10, 0, 2, 3]
def L.kaci : List Nat := [10, 0, 2, 8]
def L.kacj : List Nat := [10, 0, 2, 9]
def L.kadc : List Nat := [10, 0, 3, 2]
def L.kaij : List Nat := [10, 0, 8, 9]
def L.kb : List Nat := [10, 1]
def L.kbcd : List Nat := [10, 1, 2, 3]
def L.kbcj : List Nat := [10, 1, 2, 9]
def L.kbdc : List Nat := [10, 1, 3, 2]
def L.kbic : List Nat := [10, 1, 8, 2]
def L.kbij : List Nat := [10, 1, 8, 9]
def L.kc : List Nat := [10, 2]
def L.kcad : List Nat := [10, 2, 0, 3]
def L.kcdg : List Nat := [10, 2, 3, 6]
def L.kcmn : List Nat := [10, 2, 12, 13]
def L.kd : List Nat := [10, 3]
def L.kdbc : List Nat := [10, 3, 1, 2]
def L.kdfg : List Nat := [10, 3, 5, 6]
def L.kdlc : List Nat := [10, 3, 11, 2]
def L.kdlm : List Nat := [10, 3, 11, 12]
def L.kdmn : List Nat := [10, 3, 12, 13]
def L.keab : List Nat := [10, 4, 0, 1]
def L.kebc : List Nat := [10, 4, 1, 2]
def L.kecd : List Nat := [10, 4, 2, 3]
def L.kefg : List Nat := [10, 4, 5, 6]
def L.ki : List Nat := [10, 8]
def L.kijabc : List Nat := [10, 8, 9, 0, 1, 2]
def L.kijacb : List Nat := [10, 8, 9, 0, 2, 1]
def L.kijbac : List Nat := [10, 8, 9, 1, 0, 2]
def L.kijbca : List Nat := [10, 8, 9, 1, 2, 0]
def L.kijcab : List Nat := [10, 8, 9, 2, 0, 1]
def L.kijcba : List Nat := [10, 8, 9, 2, 1, 0]
def L.kijlabcd : List Nat := [10, 8, 9, 11, 0, 1, 2, 3]
def L.kijlabdc : List Nat := [10, 8, 9, 11, 0, 1, 3, 2]
def L.kijlacbd : List Nat := [10, 8, 9, 11, 0, 2, 1, 3]
def L.kijlacdb : List Nat := [10, 8, 9, 11, 0, 2, 3, 1]
def L.kijladbc : List Nat := [10, 8, 9, 11, 0, 3, 1, 2]
def L.kijladcb : List Nat := [10, 8, 9, 11, 0, 3, 2, 1]
def L.kijlbacd : List Nat := [10, 8, 9, 11, 1, 0, 2, 3]
def L.kijlbadc : List Nat := [10, 8, 9, 11, 1, 0, 3, 2]
def L.kijlbcad : List Nat := [10, 8, 9, 11, 1, 2, 0, 3]
def L.kijlbcda : List Nat := [10, 8, 9, 11, 1, 2, 3, 0]
def L.kijlbdac : List Nat := [10, 8, 9, 11, 1, 3, 0, 2]
def L.kijlbdca : List Nat := [10, 8, 9, 11, 1, 3, 2, 0]
def L.kijlcabd : List Nat := [10, 8, 9, 11, 2, 0, 1, 3]
def L.kijlcadb : List Nat := [10, 8, 9, 11, 2, 0, 3, 1]
def L.kijlcbad : List Nat := [10, 8, 9, 11, 2, 1, 0, 3]
def L.kijlcbda : List Nat := [10, 8, 9, 11, 2, 1, 3, 0]
def L.kijlcdab : List Nat := [10, 8, 9, 11, 2, 3, 0, 1]
def L.kijlcdba : List Nat := [10, 8, 9, 11, 2, 3, 1, 0]
def L.kijldabc : List Nat := [10, 8, 9, 11, 3, 0, 1, 2]
def L.kijldacb : List Nat := [10, 8, 9, 11, 3, 0, 2, 1]
def L.kijldbac : List Nat := [10, 8, 9, 11, 3, 1, 0, 2]
def L.kijldbca : List Nat := [10, 8, 9, 11, 3, 1, 2, 0]
def L.kijldcab : List Nat := [10, 8, 9, 11, 3, 2, 0, 1]
def L.kijldcba : List Nat := [10, 8, 9, 11, 3, 2, 1, 0]
def L.kiljabcd : List Nat := [10, 8, 11, 9, 0, 1, 2, 3]
def L.kiljabdc : List Nat := [10, 8, 11, 9, 0, 1, 3, 2]
def L.kiljacbd : List Nat := [10, 8, 11, 9, 0, 2, 1, 3]
def L.kiljacdb : List Nat := [10, 8, 11, 9, 0, 2, 3, 1]
def L.kiljadbc : List Nat := [10, 8, 11, 9, 0, 3, 1, 2]
def L.kiljadcb : List Nat := [10, 8, 11, 9, 0, 3, 2, 1]
def L.kiljbacd : List Nat := [10, 8, 11, 9, 1, 0, 2, 3]
def L.kiljbadc : List Nat := [10, 8, 11, 9, 1, 0, 3, 2]
def L.kiljbcad : List Nat := [10, 8, 11, 9, 1, 2, 0, 3]
def L.kiljbcda : List Nat := [10, 8, 11, 9, 1, 2, 3, 0]
def L.kiljbdac : List Nat := [10, 8, 11, 9, 1, 3, 0, 2]
def L.kiljbdca : List Nat := [10, 8, 11, 9, 1, 3, 2, 0]
def L.kiljcabd : List Nat := [10, 8, 11, 9, 2, 0, 1, 3]
def L.kiljcadb : List Nat := [10, 8, 11, 9, 2, 0, 3, 1]
def L.kiljcbad : List Nat := [10, 8, 11, 9, 2, 1, 0, 3]
def L.kiljcbda : List Nat := [10, 8, 11, 9, 2, 1, 3, 0]
def L.kiljcdab : List Nat := [10, 8, 11, 9, 2, 3, 0, 1]
def L.kiljcdba : List Nat := [10, 8, 11, 9, 2, 3, 1, 0]
def L.kiljdabc : List Nat := [10, 8, 11, 9, 3, 0, 1, 2]
def L.kiljdacb : List Nat := [10, 8, 11, 9, 3, 0, 2, 1]
def L.kiljdbac : List Nat := [10, 8, 11, 9, 3, 1, 0, 2]
def L.kiljdbca : List Nat := [10, 8, 11, 9, 3, 1, 2, 0]
def L.kiljdcab : List Nat := [10, 8, 11, 9, 3, 2, 0, 1]
def L.kiljdcba : List Nat := [10, 8, 11, 9, 3, 2, 1, 0]
def L.kj : List Nat := [10, 9]
def L.kjbc : List Nat := [10, 9, 1, 2]
def L.kjbi : List Nat := [10, 9, 1, 8]
def L.kjcb : List Nat := [10, 9, 2, 1]
def L.kjiabc : List Nat := [10, 9, 8, 0, 1, 2]
def L.kjiacb : List Nat := [10, 9, 8, 0, 2, 1]
def L.kjib : List Nat := [10, 9, 8, 1]
def L.kjibac : List Nat := [10, 9, 8, 1, 0, 2]
def L.kjibca : List Nat := [10, 9, 8, 1, 2, 0]
def L.kjicab : List Nat := [10, 9, 8, 2, 0, 1]
def L.kjicba : List Nat := [10, 9, 8, 2, 1, 0]
def L.kjilabcd : List Nat := [10, 9, 8, 11, 0, 1, 2, 3]
def L.kjilabdc : List Nat := [10, 9, 8, 11, 0, 1, 3, 2]
def L.kjilacbd : List Nat := [10, 9, 8, 11, 0, 2, 1, 3]
def L.kjilacdb : List Nat := [10, 9, 8, 11, 0, 2, 3, 1]
def L.kjiladbc : List Nat := [10, 9, 8, 11, 0, 3, 1, 2]
def L.kjiladcb : List Nat := [10, 9, 8, 11, 0, 3, 2, 1]
def L.kjilbacd : List Nat := [10, 9, 8, 11, 1, 0, 2, 3]
def L.kjilbadc : List Nat := [10, 9, 8, 11, 1, 0, 3, 2]
def L.kjilbcad : List Nat := [10, 9, 8, 11, 1, 2, 0, 3]
def L.kjilbcda : List Nat := [10, 9, 8, 11, 1, 2, 3, 0]
def L.kjilbdac : List Nat := [10, 9, 8, 11, 1, 3, 0, 2]
def L.kjilbdca : List Nat := [10, 9, 8, 11, 1, 3, 2, 0]
def L.kjilcabd : List Nat := [10, 9, 8, 11, 2, 0, 1, 3]
def L.kjilcadb : List Nat := [10, 9, 8, 11, 2, 0, 3, 1]
def L.kjilcbad : List Nat := [10, 9, 8, 11, 2, 1, 0, 3]
def L.kjilcbda : List Nat := [10, 9, 8, 11, 2, 1, 3, 0]
def L.kjilcdab : List Nat := [10, 9, 8, 11, 2, 3, 0, 1]
def L.kjilcdba : List Nat := [10, 9, 8, 11, 2, 3, 1, 0]
def L.kjildabc : List Nat := [10, 9, 8, 11, 3, 0, 1, 2]
def L.kjildacb : List Nat := [10, 9, 8, 11, 3, 0, 2, 1]
def L.kjildbac : List Nat := [10, 9, 8, 11, 3, 1, 0, 2]
def L.kjildbca : List Nat := [10, 9, 8, 11, 3, 1, 2, 0]
def L.kjildcab : List Nat := [10, 9, 8, 11, 3, 2, 0, 1]
def L.kjildcba : List Nat := [10, 9, 8, 11, 3, 2, 1, 0]
def L.kjliabcd : List Nat := [10, 9, 11, 8, 0, 1, 2, 3]
def L.kjliabdc : List Nat := [10, 9, 11, 8, 0, 1, 3, 2]
def L.kjliacbd : List Nat := [10, 9, 11, 8, 0, 2, 1, 3]
def L.kjliacdb : List Nat := [10, 9, 11, 8, 0, 2, 3, 1]
def L.kjliadbc : List Nat := [10, 9, 11, 8, 0, 3, 1, 2]
def L.kjliadcb : List Nat := [10, 9, 11, 8, 0, 3, 2, 1]
def L.kjlibacd : List Nat := [10, 9, 11, 8, 1, 0, 2, 3]
def L.kjlibadc : List Nat := [10, 9, 11, 8, 1, 0, 3, 2]
def L.kjlibcad : List Nat := [10, 9, 11, 8, 1, 2, 0, 3]
def L.kjlibcda : List Nat := [10, 9, 11, 8, 1, 2, 3, 0]
def L.kjlibdac : List Nat := [10, 9, 11, 8, 1, 3, 0, 2]
def L.kjlibdca : List Nat := [10, 9, 11, 8, 1, 3, 2, 0]
def L.kjlicabd : List Nat := [10, 9, 11, 8, 2, 0, 1, 3]
def L.kjlicadb : List Nat := [10, 9, 11, 8, 2, 0, 3, 1]
def L.kjlicbad : List Nat := [10, 9, 11, 8, 2, 1, 0, 3]
def L.kjlicbda : List Nat := [10, 9, 11, 8, 2, 1, 3, 0]
def L.kjlicdab : List Nat := [10, 9, 11, 8, 2, 3, 0, 1]
def L.kjlicdba : List Nat := [10, 9, 11, 8, 2, 3, 1, 0]
def L.kjlidabc : List Nat := [10, 9, 11, 8, 3, 0, 1, 2]
def L.kjlidacb : List Nat := [10, 9, 11, 8, 3, 0, 2, 1]
def L.kjlidbac : List Nat := [10, 9, 11, 8, 3, 1, 0, 2]
def L.kjlidbca : List Nat := [10, 9, 11, 8, 3, 1, 2, 0]
def L.kjlidcab : List Nat := [10, 9, 11, 8, 3, 2, 0, 1]
def L.kjlidcba : List Nat := [10, 9, 11, 8, 3, 2, 1, 0]
def L.klab : List Nat := [10, 11, 0, 1]
def L.klac : List Nat := [10, 11, 0, 2]
def L.klae : List Nat := [10, 11, 0, 4]
def L.klbd : List Nat := [10, 11, 1, 3]
def L.klbe : List Nat := [10, 11, 1, 4]
def L.klbf : List Nat := [10, 11, 1, 5]
def L.klcd : List Nat := [10, 11, 2, 3]
def L.klcdghop : List Nat := [10, 11, 2, 3, 6, 7, 14, 15]
def L.klce : List Nat := [10, 11, 2, 4]
def L.klcf : List Nat := [10, 11, 2, 5]
def L.klcj : List Nat := [10, 11, 2, 9]
def L.kldc : List Nat := [10, 11, 3, 2]
def L.klde : List Nat := [10, 11, 3, 4]
def L.kldf : List Nat := [10, 11, 3, 5]
def L.kldfghop : List Nat := [10, 11, 3, 5, 6, 7, 14, 15]
def L.klef : List Nat := [10, 11, 4, 5]
def L.klefghop : List Nat := [10, 11, 4, 5, 6, 7, 14, 15]
def L.klfb : List Nat := [10, 11, 5, 1]
def L.klfd : List Nat := [10, 11, 5, 3]
def L.klic : List Nat := [10, 11, 8, 2]
def L.klij : List Nat := [10, 11, 8, 9]
def L.klijabcd : List Nat := [10, 11, 8, 9, 0, 1, 2, 3]
def L.klijabdc : List Nat := [10, 11, 8, 9, 0, 1, 3, 2]
def L.klijacbd : List Nat := [10, 11, 8, 9, 0, 2, 1, 3]
def L.klijacdb : List Nat := [10, 11, 8, 9, 0, 2, 3, 1]
def L.klijadbc : List Nat := [10, 11, 8, 9, 0, 3, 1, 2]
def L.klijadcb : List Nat := [10, 11, 8, 9, 0, 3, 2, 1]
def L.klijbacd : List Nat := [10, 11, 8, 9, 1, 0, 2, 3]
def L.klijbadc : List Nat := [10, 11, 8, 9, 1, 0, 3, 2]
def L.klijbcad : List Nat := [10, 11, 8, 9, 1, 2, 0, 3]
def L.klijbcda : List Nat := [10, 11, 8, 9, 1, 2, 3, 0]
def L.klijbdac : List Nat := [10, 11, 8, 9, 1, 3, 0, 2]
def L.klijbdca : List Nat := [10, 11, 8, 9, 1, 3, 2, 0]
def L.klijcabd : List Nat := [10, 11, 8, 9, 2, 0, 1, 3]
def L.klijcadb : List Nat := [10, 11, 8, 9, 2, 0, 3, 1]
def L.klijcbad : List Nat := [10, 11, 8, 9, 2, 1, 0, 3]
def L.klijcbda : List Nat := [10, 11, 8, 9, 2, 1, 3, 0]
def L.klijcdab : List Nat := [10, 11, 8, 9, 2, 3, 0, 1]
def L.klijcdba : List Nat := [10, 11, 8, 9, 2, 3, 1, 0]
def L.klijdabc : List Nat := [10, 11, 8, 9, 3, 0, 1, 2]
def L.klijdacb : List Nat := [10, 11, 8, 9, 3, 0, 2, 1]
def L.klijdbac : List Nat := [10, 11, 8, 9, 3, 1, 0, 2]
def L.klijdbca : List Nat := [10, 11, 8, 9, 3, 1, 2, 0]
def L.klijdcab : List Nat := [10, 11, 8, 9, 3, 2, 0, 1]
def L.klijdcba : List Nat := [10, 11, 8, 9, 3, 2, 1, 0]
def L.klja : List Nat := [10, 11, 9, 0]
def L.kljc : List Nat := [10, 11, 9, 2]
def L.kljiabcd : List Nat := [10, 11, 9, 8, 0, 1, 2, 3]
def L.kljiabdc : List Nat := [10, 11, 9, 8, 0, 1, 3, 2]
def L.kljiacbd : List Nat := [10, 11, 9, 8, 0, 2, 1, 3]
def L.kljiacdb : List Nat := [10, 11, 9, 8, 0, 2, 3, 1]
def L.kljiadbc : List Nat := [10, 11, 9, 8, 0, 3, 1, 2]
def L.kljiadcb : List Nat := [10, 11, 9, 8, 0, 3, 2, 1]
def L.kljibacd : List Nat := [10, 11, 9, 8, 1, 0, 2, 3]
def L.kljibadc : List Nat := [10, 11, 9, 8, 1, 0, 3, 2]
def L.kljibcad : List Nat := [10, 11, 9, 8, 1, 2, 0, 3]
def L.kljibcda : List Nat := [10, 11, 9, 8, 1, 2, 3, 0]
def L.kljibdac : List Nat := [10, 11, 9, 8, 1, 3, 0, 2]
def L.kljibdca : List Nat := [10, 11, 9, 8, 1, 3, 2, 0]
def L.kljicabd : List Nat := [10, 11, 9, 8, 2, 0, 1, 3]
def L.kljicadb : List Nat := [10, 11, 9, 8, 2, 0, 3, 1]
def L.kljicbad : List Nat := [10, 11, 9, 8, 2, 1, 0, 3]
def L.kljicbda : List Nat := [10, 11, 9, 8, 2, 1, 3, 0]
def L.kljicdab : List Nat := [10, 11, 9, 8, 2, 3, 0, 1]
def L.kljicdba : List Nat := [10, 11, 9, 8, 2, 3, 1, 0]
def L.kljidabc : List Nat := [10, 11, 9, 8, 3, 0, 1, 2]
def L.kljidacb : List Nat := [10, 11, 9, 8, 3, 0, 2, 1]
def L.kljidbac : List Nat := [10, 11, 9, 8, 3, 1, 0, 2]
def L.kljidbca : List Nat := [10, 11, 9, 8, 3, 1, 2, 0]
def L.kljidcab : List Nat := [10, 11, 9, 8, 3, 2, 0, 1]
def L.kljidcba : List Nat := [10, 11, 9, 8, 3, 2, 1, 0]
def L.klmabc : List Nat := [10, 11, 12, 0, 1, 2]
def L.klmabd : List Nat := [10, 11, 12, 0, 1, 3]
def L.klmabf : List Nat := [10, 11, 12, 0, 1, 5]
def L.klmacd : List Nat := [10, 11, 12, 0, 2, 3]
def L.klmaef : List Nat := [10, 11, 12, 0, 4, 5]
def L.klmb : List Nat := [10, 11, 12, 1]
def L.klmbce : List Nat := [10, 11, 12, 1, 2, 4]
def L.klmbcf : List Nat := [10, 11, 12, 1, 2, 5]
def L.klmbef : List Nat := [10, 11, 12, 1, 4, 5]
def L.klmc : List Nat := [10, 11, 12, 2]
def L.klmd : List Nat := [10, 11, 12, 3]
def L.klmdef : List Nat := [10, 11, 12, 3, 4, 5]
def L.klmf : List Nat := [10, 11, 12, 5]
def L.klmn : List Nat := [10, 11, 12, 13]
def L.klmnabcd : List Nat := [10, 11, 12, 13, 0, 1, 2, 3]
def L.klmnbcdf : List Nat := [10, 11, 12, 13, 1, 2, 3, 5]
def L.klnc : List Nat := [10, 11, 13, 2]
def L.klnd : List Nat := [10, 11, 13, 3]
def L.klnf : List Nat := [10, 11, 13, 5]
def L.klop : List Nat := [10, 11, 14, 15]
def L.kmab : List Nat := [10, 12, 0, 1]
def L.kmbc : List Nat := [10, 12, 1, 2]
def L.kmbf : List Nat := [10, 12, 1, 5]
def L.kmcd : List Nat := [10, 12, 2, 3]
def L.kmce : List Nat := [10, 12, 2, 4]
def L.kmef : List Nat := [10, 12, 4, 5]
def L.kmfb : List Nat := [10, 12, 5, 1]
def L.kmnbcd : List Nat := [10, 12, 13, 1, 2, 3]
def L.la : List Nat := [11, 0]
def L.lade : List Nat := [11, 0, 3, 4]
def L.ladi : List Nat := [11, 0, 3, 8]
def L.ladj : List Nat := [11, 0, 3, 9]
def L.ladk : List Nat := [11, 0, 3, 10]
def L.laed : List Nat := [11, 0, 4, 3]
def L.laij : List Nat := [11, 0, 8, 9]
def L.lajk : List Nat := [11, 0, 9, 10]
def L.lb : List Nat := [11, 1]
def L.lbde : List Nat := [11, 1, 3, 4]
def L.lbdi : List Nat := [11, 1, 3, 8]
def L.lbdj : List Nat := [11, 1, 3, 9]
def L.lbdk : List Nat := [11, 1, 3, 10]
def L.lbed : List Nat := [11, 1, 4, 3]
def L.lbid : List Nat := [11, 1, 8, 3]
def L.lbij : List Nat := [11, 1, 8, 9]
def L.lbik : List Nat := [11, 1, 8, 10]
def L.lbjk : List Nat := [11, 1, 9, 10]
def L.lc : List Nat := [11, 2]
def L.lcde : List Nat := [11, 2, 3, 4]
def L.lcdi : List Nat := [11, 2, 3, 8]
def L.lcdj : List Nat := [11, 2, 3, 9]
def L.lcdk : List Nat := [11, 2, 3, 10]
def L.lced : List Nat := [11, 2, 4, 3]
def L.lcid : List Nat := [11, 2, 8, 3]
def L.lcij : List Nat := [11, 2, 8, 9]
def L.lcik : List Nat := [11, 2, 8, 10]
def L.lcjd : List Nat := [11, 2, 9, 3]
def L.lcjk : List Nat := [11, 2, 9, 10]
def L.lckn : List Nat := [11, 2, 10, 13]
def L.lcmn : List Nat := [11, 2, 12, 13]
def L.ld : List Nat := [11, 3]
def L.ldkn : List Nat := [11, 3, 10, 13]
def L.ldmn : List Nat := [11, 3, 12, 13]
def L.le : List Nat := [11, 4]
def L.lecd : List Nat := [11, 4, 2, 3]
def L.lech : List Nat := [11, 4, 2, 7]
def L.ledh : List Nat := [11, 4, 3, 7]
def L.lekn : List Nat := [11, 4, 10, 13]
def L.lemd : List Nat := [11, 4, 12, 3]
def L.lemh : List Nat := [11, 4, 12, 7]
def L.lemn : List Nat := [11, 4, 12, 13]
def L.lenh : List Nat := [11, 4, 13, 7]
def L.lgch : List Nat := [11, 6, 2, 7]
def L.lgdh : List Nat := [11, 6, 3, 7]
def L.lgeh : List Nat := [11, 6, 4, 7]
def L.lgmh : List Nat := [11, 6, 12, 7]
def L.lgnh : List Nat := [11, 6, 13, 7]
def L.lhmc : List Nat := [11, 7, 12, 2]
def L.lhmd : List Nat := [11, 7, 12, 3]
def L.lhme : List Nat := [11, 7, 12, 4]
def L.lhmn : List Nat := [11, 7, 12, 13]
def L.lhnd : List Nat := [11, 7, 13, 3]
def L.lhne : List Nat := [11, 7, 13, 4]
def L.lhop : List Nat := [11, 7, 14, 15]
def L.li : List Nat := [11, 8]
def L.lijkabcd : List Nat := [11, 8, 9, 10, 0, 1, 2, 3]
def L.lijkabdc : List Nat := [11, 8, 9, 10, 0, 1, 3, 2]
def L.lijkacbd : List Nat := [11, 8, 9, 10, 0, 2, 1, 3]
def L.lijkacdb : List Nat := [11, 8, 9, 10, 0, 2, 3, 1]
def L.lijkadbc : List Nat := [11, 8, 9, 10, 0, 3, 1, 2]
def L.lijkadcb : List Nat := [11, 8, 9, 10, 0, 3, 2, 1]
def L.lijkbacd : List Nat := [11, 8, 9, 10, 1, 0, 2, 3]
def L.lijkbadc : List Nat := [11, 8, 9, 10, 1, 0, 3, 2]
def L.lijkbcad : List Nat := [11, 8, 9, 10, 1, 2, 0, 3]
def L.lijkbcda : List Nat := [11, 8, 9, 10, 1, 2, 3, 0]
def L.lijkbdac : List Nat := [11, 8, 9, 10, 1, 3, 0, 2]
def L.lijkbdca : List Nat := [11, 8, 9, 10, 1, 3, 2, 0]
def L.lijkcabd : List Nat := [11, 8, 9, 10, 2, 0, 1, 3]
def L.lijkcadb : List Nat := [11, 8, 9, 10, 2, 0, 3, 1]
def L.lijkcbad : List Nat := [11, 8, 9, 10, 2, 1, 0, 3]
def L.lijkcbda : List Nat := [11, 8, 9, 10, 2, 1, 3, 0]
def L.lijkcdab : List Nat := [11, 8, 9, 10, 2, 3, 0, 1]
def L.lijkcdba : List Nat := [11, 8, 9, 10, 2, 3, 1, 0]
def L.lijkdabc : List Nat := [11, 8, 9, 10, 3, 0, 1, 2]
def L.lijkdacb : List Nat := [11, 8, 9, 10, 3, 0, 2, 1]
def L.lijkdbac : List Nat := [11, 8, 9, 10, 3, 1, 0, 2]
def L.lijkdbca : List Nat := [11, 8, 9, 10, 3, 1, 2, 0]
def L.lijkdcab : List Nat := [11, 8, 9, 10, 3, 2, 0, 1]
def L.lijkdcba : List Nat := [11, 8, 9, 10, 3, 2, 1, 0]
def L.likjabcd : List Nat := [11, 8, 10, 9, 0, 1, 2, 3]
def L.likjabdc : List Nat := [11, 8, 10, 9, 0, 1, 3, 2]
def L.likjacbd : List Nat := [11, 8, 10, 9, 0, 2, 1, 3]
def L.likjacdb : List Nat := [11, 8, 10, 9, 0, 2, 3, 1]
def L.likjadbc : List Nat := [11, 8, 10, 9, 0, 3, 1, 2]
def L.likjadcb : List Nat := [11, 8, 10, 9, 0, 3, 2, 1]
def L.likjbacd : List Nat := [11, 8, 10, 9, 1, 0, 2, 3]
def L.likjbadc : List Nat := [11, 8, 10, 9, 1, 0, 3, 2]
def L.likjbcad : List Nat := [11, 8, 10, 9, 1, 2, 0, 3]
def L.likjbcda : List Nat := [11, 8, 10, 9, 1, 2, 3, 0]
def L.likjbdac : List Nat := [11, 8, 10, 9, 1, 3, 0, 2]
def L.likjbdca : List Nat := [11, 8, 10, 9, 1, 3, 2, 0]
def L.likjcabd : List Nat := [11, 8, 10, 9, 2, 0, 1, 3]
def L.likjcadb : List Nat := [11, 8, 10, 9, 2, 0, 3, 1]
def L.likjcbad : List Nat := [11, 8, 10, 9, 2, 1, 0, 3]
def L.likjcbda : List Nat := [11, 8, 10, 9, 2, 1, 3, 0]
def L.likjcdab : List Nat := [11, 8, 10, 9, 2, 3, 0, 1]
def L.likjcdba : List Nat := [11, 8, 10, 9, 2, 3, 1, 0]
def L.likjdabc : List Nat := [11, 8, 10, 9, 3, 0, 1, 2]
def L.likjdacb : List Nat := [11, 8, 10, 9, 3, 0, 2, 1]
def L.likjdbac : List Nat := [11, 8, 10, 9, 3, 1, 0, 2]
def L.likjdbca : List Nat := [11, 8, 10, 9, 3, 1, 2, 0]
def L.likjdcab : List Nat := [11, 8, 10, 9, 3, 2, 0, 1]
def L.likjdcba : List Nat := [11, 8, 10, 9, 3, 2, 1, 0]
def L.lj : List Nat := [11, 9]
def L.ljikabcd : List Nat := [11, 9, 8, 10, 0, 1, 2, 3]
def L.ljikabdc : List Nat := [11, 9, 8, 10, 0, 1, 3, 2]
def L.ljikacbd : List Nat := [11, 9, 8, 10, 0, 2, 1, 3]
def L.ljikacdb : List Nat := [11, 9, 8, 10, 0, 2, 3, 1]
def L.ljikadbc : List Nat := [11, 9, 8, 10, 0, 3, 1, 2]
def L.ljikadcb : List Nat := [11, 9, 8, 10, 0, 3, 2, 1]
def L.ljikbacd : List Nat := [11, 9, 8, 10, 1, 0, 2, 3]
def L.ljikbadc : List Nat := [11, 9, 8, 10, 1, 0, 3, 2]
def L.ljikbcad : List Nat := [11, 9, 8, 10, 1, 2, 0, 3]
def L.ljikbcda : List Nat := [11, 9, 8, 10, 1, 2, 3, 0]
def L.ljikbdac : List Nat := [11, 9, 8, 10, 1, 3, 0, 2]
def L.ljikbdca : List Nat := [11, 9, 8, 10, 1, 3, 2, 0]
def L.ljikcabd : List Nat := [11, 9, 8, 10, 2, 0, 1, 3]
def L.ljikcadb : List Nat := [11, 9, 8, 10, 2, 0, 3, 1]
def L.ljikcbad : List Nat := [11, 9, 8, 10, 2, 1, 0, 3]
def L.ljikcbda : List Nat := [11, 9, 8, 10, 2, 1, 3, 0]
def L.ljikcdab : List Nat := [11, 9, 8, 10, 2, 3, 0, 1]
def L.ljikcdba : List Nat := [11, 9, 8, 10, 2, 3, 1, 0]
def L.ljikdabc : List Nat := [11, 9, 8, 10, 3, 0, 1, 2]
def L.ljikdacb : List Nat := [11, 9, 8, 10, 3, 0, 2, 1]
def L.ljikdbac : List Nat := [11, 9, 8, 10, 3, 1, 0, 2]
def L.ljikdbca : List Nat := [11, 9, 8, 10, 3, 1, 2, 0]
def L.ljikdcab : List Nat := [11, 9, 8, 10, 3, 2, 0, 1]
def L.ljikdcba : List Nat := [11, 9, 8, 10, 3, 2, 1, 0]
def L.ljkiabcd : List Nat := [11, 9, 10, 8, 0, 1, 2, 3]
def L.ljkiabdc : List Nat := [11, 9, 10, 8, 0, 1, 3, 2]
def L.ljkiacbd : List Nat := [11, 9, 10, 8, 0, 2, 1, 3]
def L.ljkiacdb : List Nat := [11, 9, 10, 8, 0, 2, 3, 1]
def L.ljkiadbc : List Nat := [11, 9, 10, 8, 0, 3, 1, 2]
def L.ljkiadcb : List Nat := [11, 9, 10, 8, 0, 3, 2, 1]
def L.ljkibacd : List Nat := [11, 9, 10, 8, 1, 0, 2, 3]
def L.ljkibadc : List Nat := [11, 9, 10, 8, 1, 0, 3, 2]
def L.ljkibcad : List Nat := [11, 9, 10, 8, 1, 2, 0, 3]
def L.ljkibcda : List Nat := [11, 9, 10, 8, 1, 2, 3, 0]
def L.ljkibdac : List Nat := [11, 9, 10, 8, 1, 3, 0, 2]
def L.ljkibdca : List Nat := [11, 9, 10, 8, 1, 3, 2, 0]
def L.ljkicabd : List Nat := [11, 9, 10, 8, 2, 0, 1, 3]
def L.ljkicadb : List Nat := [11, 9, 10, 8, 2, 0, 3, 1]
def L.ljkicbad : List Nat := [11, 9, 10, 8, 2, 1, 0, 3]
def L.ljkicbda : List Nat := [11, 9, 10, 8, 2, 1, 3, 0]
def L.ljkicdab : List Nat := [11, 9, 10, 8, 2, 3, 0, 1]
def L.ljkicdba : List Nat := [11, 9, 10, 8, 2, 3, 1, 0]
def L.ljkidabc : List Nat := [11, 9, 10, 8, 3, 0, 1, 2]
def L.ljkidacb : List Nat := [11, 9, 10, 8, 3, 0, 2, 1]
def L.ljkidbac : List Nat := [11, 9, 10, 8, 3, 1, 0, 2]
def L.ljkidbca : List Nat := [11, 9, 10, 8, 3, 1, 2, 0]
def L.ljkidcab : List Nat := [11, 9, 10, 8, 3, 2, 0, 1]
def L.ljkidcba : List Nat := [11, 9, 10, 8, 3, 2, 1, 0]
def L.lk : List Nat := [11, 10]
def L.lkcd : List Nat := [11, 10, 2, 3]
def L.lkci : List Nat := [11, 10, 2, 8]
def L.lkcj : List Nat := [11, 10, 2, 9]
def L.lkdc : List Nat := [11, 10, 3, 2]
def L.lkic : List Nat := [11, 10, 8, 2]
def L.lkij : List Nat := [11, 10, 8, 9]
def L.lkijabcd : List Nat := [11, 10, 8, 9, 0, 1, 2, 3]
def L.lkijabdc : List Nat := [11, 10, 8, 9, 0, 1, 3, 2]
def L.lkijacbd : List Nat := [11, 10, 8, 9, 0, 2, 1, 3]
def L.lkijacdb : List Nat := [11, 10, 8, 9, 0, 2, 3, 1]
def L.lkijadbc : List Nat := [11, 10, 8, 9, 0, 3, 1, 2]
def L.lkijadcb : List Nat := [11, 10, 8, 9, 0, 3, 2, 1]
def L.lkijbacd : List Nat := [11, 10, 8, 9, 1, 0, 2, 3]
def L.lkijbadc : List Nat := [11, 10, 8, 9, 1, 0, 3, 2]
def L.lkijbcad : List Nat := [11, 10, 8, 9, 1, 2, 0, 3]
def L.lkijbcda : List Nat := [11, 10, 8, 9, 1, 2, 3, 0]
def L.lkijbdac : List Nat := [11, 10, 8, 9, 1, 3, 0, 2]
def L.lkijbdca : List Nat := [11, 10, 8, 9, 1, 3, 2, 0]
def L.lkijcabd : List Nat := [11, 10, 8, 9, 2, 0, 1, 3]
def L.lkijcadb : List Nat := [11, 10, 8, 9, 2, 0, 3, 1]
def L.lkijcbad : List Nat := [11, 10, 8, 9, 2, 1, 0, 3]
def L.lkijcbda : List Nat := [11, 10, 8, 9, 2, 1, 3, 0]
def L.lkijcdab : List Nat := [11, 10, 8, 9, 2, 3, 0, 1]
def L.lkijcdba : List Nat := [11, 10, 8, 9, 2, 3, 1, 0]
def L.lkijdabc : List Nat := [11, 10, 8, 9, 3, 0, 1, 2]
def L.lkijdacb : List Nat := [11, 10, 8, 9, 3, 0, 2, 1]
def L.lkijdbac : List Nat := [11, 10, 8, 9, 3, 1, 0, 2]
def L.lkijdbca : List Nat := [11, 10, 8, 9, 3, 1, 2, 0]
def L.lkijdcab : List Nat := [11, 10, 8, 9, 3, 2, 0, 1]
def L.lkijdcba : List Nat := [11, 10, 8, 9, 3, 2, 1, 0]
def L.lkjc : List Nat := [11, 10, 9, 2]
def L.lkjiabcd : List Nat := [11, 10, 9, 8, 0, 1, 2, 3]
def L.lkjiabdc : List Nat := [11, 10, 9, 8, 0, 1, 3, 2]
def L.lkjiacbd : List Nat := [11, 10, 9, 8, 0, 2, 1, 3]
def L.lkjiacdb : List Nat := [11, 10, 9, 8, 0, 2, 3, 1]
def L.lkjiadbc : List Nat := [11, 10, 9, 8, 0, 3, 1, 2]
def L.lkjiadcb : List Nat := [11, 10, 9, 8, 0, 3, 2, 1]
def L.lkjibacd : List Nat := [11, 10, 9, 8, 1, 0, 2, 3]
def L.lkjibadc : List Nat := [11, 10, 9, 8, 1, 0, 3, 2]
def L.lkjibcad : List Nat := [11, 10, 9, 8, 1, 2, 0, 3]
def L.lkjibcda : List Nat := [11, 10, 9, 8, 1, 2, 3, 0]
def L.lkjibdac : List Nat := [11, 10, 9, 8, 1, 3, 0, 2]
def L.lkjibdca : List Nat := [11, 10, 9, 8, 1, 3, 2, 0]
def L.lkjicabd : List Nat := [11, 10, 9, 8, 2, 0, 1, 3]
def L.lkjicadb : List Nat := [11, 10, 9, 8, 2, 0, 3, 1]
def L.lkjicbad : List Nat := [11, 10, 9, 8, 2, 1, 0, 3]
def L.lkjicbda : List Nat := [11, 10, 9, 8, 2, 1, 3, 0]
def L.lkjicdab : List Nat := [11, 10, 9, 8, 2, 3, 0, 1]
def L.lkjicdba : List Nat := [11, 10, 9, 8, 2, 3, 1, 0]
def L.lkjidabc : List Nat := [11, 10, 9, 8, 3, 0, 1, 2]
def L.lkjidacb : List Nat := [11, 10, 9, 8, 3, 0, 2, 1]
def L.lkjidbac : List Nat := [11, 10, 9, 8, 3, 1, 0, 2]
def L.lkjidbca : List Nat := [11, 10, 9, 8, 3, 1, 2, 0]
def L.lkjidcab : List Nat := [11, 10, 9, 8, 3, 2, 0, 1]
def L.lkjidcba : List Nat := [11, 10, 9, 8, 3, 2, 1, 0]
def L.lmab : List Nat := [11, 12, 0, 1]
def L.lmad : List Nat := [11, 12, 0, 3]
def L.lmbd : List Nat := [11, 12, 1, 3]
def L.lmcd : List Nat := [11, 12, 2, 3]
def L.lmde : List Nat := [11, 12, 3, 4]
def L.lmdi : List Nat := [11, 12, 3, 8]
def L.lmdj : List Nat := [11, 12, 3, 9]
def L.lmdk : List Nat := [11, 12, 3, 10]
def L.lmed : List Nat := [11, 12, 4, 3]
def L.lmid : List Nat := [11, 12, 8, 3]
def L.lmij : List Nat := [11, 12, 8, 9]
def L.lmik : List Nat := [11, 12, 8, 10]
def L.lmjd : List Nat := [11, 12, 9, 3]
def L.lmjk : List Nat := [11, 12, 9, 10]
def L.lmkd : List Nat := [11, 12, 10, 3]
def L.lmnabe : List Nat := [11, 12, 13, 0, 1, 4]
def L.lmnbde : List Nat := [11, 12, 13, 1, 3, 4]
def L.lmncde : List Nat := [11, 12, 13, 2, 3, 4]
def L.lncd : List Nat := [11, 13, 2, 3]
def L.lncdghop : List Nat := [11, 13, 2, 3, 6, 7, 14, 15]
def L.lndf : List Nat := [11, 13, 3, 5]
def L.lndfghop : List Nat := [11, 13, 3, 5, 6, 7, 14, 15]
def L.lnef : List Nat := [11, 13, 4, 5]
def L.lnefghop : List Nat := [11, 13, 4, 5, 6, 7, 14, 15]
def L.lnfd : List Nat := [11, 13, 5, 3]
def L.maei : List Nat := [12, 0, 4, 8]
def L.maej : List Nat := [12, 0, 4, 9]
def L.maek : List Nat := [12, 0, 4, 10]
def L.mael : List Nat := [12, 0, 4, 11]
def L.maij : List Nat := [12, 0, 8, 9]
def L.maik : List Nat := [12, 0, 8, 10]
def L.mail : List Nat := [12, 0, 8, 11]
def L.maji : List Nat := [12, 0, 9, 8]
def L.majk : List Nat := [12, 0, 9, 10]
def L.majl : List Nat := [12, 0, 9, 11]
def L.makl : List Nat := [12, 0, 10, 11]
def L.male : List Nat := [12, 0, 11, 4]
def L.malj : List Nat := [12, 0, 11, 9]
def L.malk : List Nat := [12, 0, 11, 10]
def L.mb : List Nat := [12, 1]
def L.mbei : List Nat := [12, 1, 4, 8]
def L.mbej : List Nat := [12, 1, 4, 9]
def L.mbek : List Nat := [12, 1, 4, 10]
def L.mbel : List Nat := [12, 1, 4, 11]
def L.mbie : List Nat := [12, 1, 8, 4]
def L.mbij : List Nat := [12, 1, 8, 9]
def L.mbil : List Nat := [12, 1, 8, 11]
def L.mbje : List Nat := [12, 1, 9, 4]
def L.mbjk : List Nat := [12, 1, 9, 10]
def L.mbjl : List Nat := [12, 1, 9, 11]
def L.mbkl : List Nat := [12, 1, 10, 11]
def L.mble : List Nat := [12, 1, 11, 4]
def L.mblj : List Nat := [12, 1, 11, 9]
def L.mblk : List Nat := [12, 1, 11, 10]
def L.mcei : List Nat := [12, 2, 4, 8]
def L.mcej : List Nat := [12, 2, 4, 9]
def L.mcek : List Nat := [12, 2, 4, 10]
def L.mcel : List Nat := [12, 2, 4, 11]
def L.mcie : List Nat := [12, 2, 8, 4]
def L.mcij : List Nat := [12, 2, 8, 9]
def L.mcik : List Nat := [12, 2, 8, 10]
def L.mcil : List Nat := [12, 2, 8, 11]
def L.mcje : List Nat := [12, 2, 9, 4]
def L.mcjk : List Nat := [12, 2, 9, 10]
def L.mcjl : List Nat := [12, 2, 9, 11]
def L.mckl : List Nat := [12, 2, 10, 11]
def L.mclb : List Nat := [12, 2, 11, 1]
def L.mcle : List Nat := [12, 2, 11, 4]
def L.mcln : List Nat := [12, 2, 11, 13]
def L.md : List Nat := [12, 3]
def L.mdei : List Nat := [12, 3, 4, 8]
def L.mdej : List Nat := [12, 3, 4, 9]
def L.mdek : List Nat := [12, 3, 4, 10]
def L.mdel : List Nat := [12, 3, 4, 11]
def L.mdie : List Nat := [12, 3, 8, 4]
def L.mdij : List Nat := [12, 3, 8, 9]
def L.mdil : List Nat := [12, 3, 8, 11]
def L.mdje : List Nat := [12, 3, 9, 4]
def L.mdjl : List Nat := [12, 3, 9, 11]
def L.mdke : List Nat := [12, 3, 10, 4]
def L.mdkl : List Nat := [12, 3, 10, 11]
def L.mdle : List Nat := [12, 3, 11, 4]
def L.mdlj : List Nat := [12, 3, 11, 9]
def L.mdlk : List Nat := [12, 3, 11, 10]
def L.mdln : List Nat := [12, 3, 11, 13]
def L.mekb : List Nat := [12, 4, 10, 1]
def L.mekl : List Nat := [12, 4, 10, 11]
def L.melb : List Nat := [12, 4, 11, 1]
def L.meln : List Nat := [12, 4, 11, 13]
def L.mi : List Nat := [12, 8]
def L.mj : List Nat := [12, 9]
def L.mk : List Nat := [12, 10]
def L.ml : List Nat := [12, 11]
def L.mlde : List Nat := [12, 11, 3, 4]
def L.mldi : List Nat := [12, 11, 3, 8]
def L.mldj : List Nat := [12, 11, 3, 9]
def L.mldk : List Nat := [12, 11, 3, 10]
def L.mled : List Nat := [12, 11, 4, 3]
def L.mlid : List Nat := [12, 11, 8, 3]
def L.mlij : List Nat := [12, 11, 8, 9]
def L.mlik : List Nat := [12, 11, 8, 10]
def L.mljd : List Nat := [12, 11, 9, 3]
def L.mljk : List Nat := [12, 11, 9, 10]
def L.mlkd : List Nat := [12, 11, 10, 3]
def L.mnab : List Nat := [12, 13, 0, 1]
def L.mnabcdef : List Nat := [12, 13, 0, 1, 2, 3, 4, 5]
def L.mnae : List Nat := [12, 13, 0, 4]
def L.mnbd : List Nat := [12, 13, 1, 3]
def L.mnbf : List Nat := [12, 13, 1, 5]
def L.mncd : List Nat := [12, 13, 2, 3]
def L.mncdghop : List Nat := [12, 13, 2, 3, 6, 7, 14, 15]
def L.mnce : List Nat := [12, 13, 2, 4]
def L.mndf : List Nat := [12, 13, 3, 5]
def L.mndfghop : List Nat := [12, 13, 3, 5, 6, 7, 14, 15]
def L.mnef : List Nat := [12, 13, 4, 5]
def L.mnfb : List Nat := [12, 13, 5, 1]
def L.mnfd : List Nat := [12, 13, 5, 3]
def L.mnfe : List Nat := [12, 13, 5, 4]
def L.mnij : List Nat := [12, 13, 8, 9]
def L.mnik : List Nat := [12, 13, 8, 10]
def L.mnil : List Nat := [12, 13, 8, 11]
def L.mnji : List Nat := [12, 13, 9, 8]
def L.mnjk : List Nat := [12, 13, 9, 10]
def L.mnjl : List Nat := [12, 13, 9, 11]
def L.mnkl : List Nat := [12, 13, 10, 11]
def L.mnlj : List Nat := [12, 13, 11, 9]
def L.mnlk : List Nat := [12, 13, 11, 10]
def L.nabc : List Nat := [13, 0, 1, 2]
def L.nbcf : List Nat := [13, 1, 2, 5]
def L.nbfc : List Nat := [13, 1, 5, 2]
def L.ncde : List Nat := [13, 2, 3, 4]
def L.ncdg : List Nat := [13, 2, 3, 6]
def L.ncef : List Nat := [13, 2, 4, 5]
def L.ndfg : List Nat := [13, 3, 5, 6]
def L.nefg : List Nat := [13, 4, 5, 6]
def L.nmef : List Nat := [13, 12, 4, 5]
def L.nmfe : List Nat := [13, 12, 5, 4]
def L.nmij : List Nat := [13, 12, 8, 9]
def L.nmik : List Nat := [13, 12, 8, 10]
def L.nmil : List Nat := [13, 12, 8, 11]
def L.nmji : List Nat := [13, 12, 9, 8]
def L.nmjk : List Nat := [13, 12, 9, 10]
def L.nmjl : List Nat := [13, 12, 9, 11]
def L.nmkl : List Nat := [13, 12, 10, 11]
def L.nmlj : List Nat := [13, 12, 11, 9]
def L.nmlk : List Nat := [13, 12, 11, 10]
def L.opab : List Nat := [14, 15, 0, 1]
def L.opaf : List Nat := [14, 15, 0, 5]
def L.opcd : List Nat := [14, 15, 2, 3]
def L.opcf : List Nat := [14, 15, 2, 5]
def L.opdf : List Nat := [14, 15, 3, 5]
def L.opef : List Nat := [14, 15, 4, 5]
def L.opmb : List Nat := [14, 15, 12, 1]
def L.opmc : List Nat := [14, 15, 12, 2]
def L.opmd : List Nat := [14, 15, 12, 3]
def L.opmf : List Nat := [14, 15, 12, 5]
def L.opmg : List Nat := [14, 15, 12, 6]
def L.opmn : List Nat := [14, 15, 12, 13]
def L.opnb : List Nat := [14, 15, 13, 1]
def L.opnc : List Nat := [14, 15, 13, 2]
def L.opnd : List Nat := [14, 15, 13, 3]
def L.opnf : List Nat := [14, 15, 13, 5]
def L.opng : List Nat := [14, 15, 13, 6]

/-! Variables. -/

namespace X
def nocc : Nat := 0
def Roovv : Nat := 1
def nvir : Nat := 2
def Roovv_anti : Nat := 3
def Rooovvv : Nat := 4
def Rooovvv_anti : Nat := 5
def Roooovvvv : Nat := 6
def nvirt : Nat := 7
def Roooovvvv_anti : Nat := 8
def rvvvooo : Nat := 9
def t2_dag : Nat := 10
def g : Nat := 11
def tmp0 : Nat := 12
def t3resid : Nat := 13
def t3_dag : Nat := 14
def rooovvv : Nat := 15
def t2 : Nat := 16
def roovv : Nat := 17
def t3 : Nat := 18
def energy : Nat := 19
def t1_dag : Nat := 20
def rov : Nat := 21
def t2dag : Nat := 22
def t1_bar : Nat := 23
def A_vvv_voo : Nat := 24
def A : Nat := 25
def t : Nat := 26
def t2_aa : Nat := 27
def v_oo : Nat := 28
def v_vo : Nat := 29
def v_vv : Nat := 30
def v_m2 : Nat := 31
def Roooovvvv_t23 : Nat := 32
def doubles_res : Nat := 33
def f : Nat := 34
def reduced : Nat := 35
def contracted_intermediate : Nat := 36
def f_aa : Nat := 37
def t2_aaaa : Nat := 38
def g_aaaa : Nat := 39
def g_abab : Nat := 40
def t2_abab : Nat := 41
def g_bbbb : Nat := 42
def f_bb : Nat := 43
def t2_bbbb : Nat := 44
def g_occ : Nat := 45
def g_ov : Nat := 46
def g_virt : Nat := 47
def l2 : Nat := 48
def double_res : Nat := 49
def singles_res : Nat := 50
def t1 : Nat := 51
def triples_res : Nat := 52
def l1 : Nat := 53
def F : Nat := 54
def T1 : Nat := 55
def T2 : Nat := 56
def W : Nat := 57
def T3 : Nat := 58
def T4 : Nat := 59
def roooovvvv : Nat := 60
def tmp1 : Nat := 61
def T2dag : Nat := 62
def D4T4 : Nat := 63
def resid_aaaa : Nat := 64
def D2 : Nat := 65
def sixthO_wnT2cubed : Nat := 66
def D2T2 : Nat := 67
def teste : Nat := 68
def sixthO_wnT2T3 : Nat := 69
def no : Nat := 70
def nv : Nat := 71
def t4T : Nat := 72
def tmp2 : Nat := 73
def fifthorder_wnt2 : Nat := 74
def t2test : Nat := 75
def tmp3 : Nat := 76
def tmp4 : Nat := 77
def tmp5 : Nat := 78
def tmp6 : Nat := 79
def tmp7 : Nat := 80
def tmp8 : Nat := 81
def tmp9 : Nat := 82
def tmp10 : Nat := 83
def tmp11 : Nat := 84
def fifthorder_wnt3 : Nat := 85
def tmp12 : Nat := 86
def tmp13 : Nat := 87
def tmp14 : Nat := 88
def tmp15 : Nat := 89
def tmp16 : Nat := 90
def quadruples_res : Nat := 91
def t4_resid_oo : Nat := 92
def l2_aaaa : Nat := 93
def t3_aaaaaa : Nat := 94
def t3_aabaab : Nat := 95
def l2_abab : Nat := 96
def t3_abbabb : Nat := 97
def l2_bbbb : Nat := 98
def t3_bbbbbb : Nat := 99
def contractInfo_nocc : Nat := 100
def contractInfo_nvir : Nat := 101
def contractInfo_ints : Nat := 102
def t4 : Nat := 103
def pickle : Nat := 104
def t_dag : Nat := 105
def t1_aa : Nat := 106
def t1_bb : Nat := 107
def t4_aaaaaaaa : Nat := 108
def t4_aaabaaab : Nat := 109
def t4_aabbaabb : Nat := 110
def t4_abbbabbb : Nat := 111
def t4_bbbbbbbb : Nat := 112
end X

/-! Operands: variables with slices or transposes. -/

namespace Q
def A : Arg := ⟨X.A, []⟩
def A_vvv_voo : Arg := ⟨X.A_vvv_voo, []⟩
def D2 : Arg := ⟨X.D2, []⟩
def D2T2 : Arg := ⟨X.D2T2, []⟩
def D2T2_t2301 : Arg := ⟨X.D2T2, [.tr [2, 3, 0, 1]]⟩
def D4T4 : Arg := ⟨X.D4T4, []⟩
def D4T4_t45670123 : Arg := ⟨X.D4T4, [.tr [4, 5, 6, 7, 0, 1, 2, 3]]⟩
def F_oo : Arg := ⟨X.F, [.sl [.o, .o]]⟩
def F_ov : Arg := ⟨X.F, [.sl [.o, .v]]⟩
def F_vo : Arg := ⟨X.F, [.sl [.v, .o]]⟩
def F_vv : Arg := ⟨X.F, [.sl [.v, .v]]⟩
def Roooovvvv : Arg := ⟨X.Roooovvvv, []⟩
def Roooovvvv_anti : Arg := ⟨X.Roooovvvv_anti, []⟩
def Roooovvvv_t45670123 : Arg := ⟨X.Roooovvvv, [.tr [4, 5, 6, 7, 0, 1, 2, 3]]⟩
def Rooovvv : Arg := ⟨X.Rooovvv, []⟩
def Rooovvv_anti : Arg := ⟨X.Rooovvv_anti, []⟩
def Roovv : Arg := ⟨X.Roovv, []⟩
def Roovv_anti : Arg := ⟨X.Roovv_anti, []⟩
def T1 : Arg := ⟨X.T1, []⟩
def T2 : Arg := ⟨X.T2, []⟩
def T2_t2301 : Arg := ⟨X.T2, [.tr [2, 3, 0, 1]]⟩
def T2dag : Arg := ⟨X.T2dag, []⟩
def T3 : Arg := ⟨X.T3, []⟩
def T4 : Arg := ⟨X.T4, []⟩
def W : Arg := ⟨X.W, []⟩
def W_oooo : Arg := ⟨X.W, [.sl [.o, .o, .o, .o]]⟩
def W_ooov : Arg := ⟨X.W, [.sl [.o, .o, .o, .v]]⟩
def W_oovv : Arg := ⟨X.W, [.sl [.o, .o, .v, .v]]⟩
def W_ovoo : Arg := ⟨X.W, [.sl [.o, .v, .o, .o]]⟩
def W_ovov : Arg := ⟨X.W, [.sl [.o, .v, .o, .v]]⟩
def W_ovvv : Arg := ⟨X.W, [.sl [.o, .v, .v, .v]]⟩
def W_vvoo : Arg := ⟨X.W, [.sl [.v, .v, .o, .o]]⟩
def W_vvov : Arg := ⟨X.W, [.sl [.v, .v, .o, .v]]⟩
def W_vvvv : Arg := ⟨X.W, [.sl [.v, .v, .v, .v]]⟩
def contractInfo_ints : Arg := ⟨X.contractInfo_ints, []⟩
def contractInfo_nocc : Arg := ⟨X.contractInfo_nocc, []⟩
def contractInfo_nvir : Arg := ⟨X.contractInfo_nvir, []⟩
def contracted_intermediate : Arg := ⟨X.contracted_intermediate, []⟩
def double_res : Arg := ⟨X.double_res, []⟩
def doubles_res : Arg := ⟨X.doubles_res, []⟩
def energy : Arg := ⟨X.energy, []⟩
def f_aa_oaoa : Arg := ⟨X.f_aa, [.sl [.o, .o]]⟩
def f_aa_oava : Arg := ⟨X.f_aa, [.sl [.o, .v]]⟩
def f_aa_vaoa : Arg := ⟨X.f_aa, [.sl [.v, .o]]⟩
def f_aa_vava : Arg := ⟨X.f_aa, [.sl [.v, .v]]⟩
def f_bb_oaoa : Arg := ⟨X.f_bb, [.sl [.o, .o]]⟩
def f_bb_oava : Arg := ⟨X.f_bb, [.sl [.o, .v]]⟩
def f_bb_vaoa : Arg := ⟨X.f_bb, [.sl [.v, .o]]⟩
def f_bb_vava : Arg := ⟨X.f_bb, [.sl [.v, .v]]⟩
def f_oo : Arg := ⟨X.f, [.sl [.o, .o]]⟩
def f_ov : Arg := ⟨X.f, [.sl [.o, .v]]⟩
def f_vo : Arg := ⟨X.f, [.sl [.v, .o]]⟩
def f_vv : Arg := ⟨X.f, [.sl [.v, .v]]⟩
def g : Arg := ⟨X.g, []⟩
def g_aaaa : Arg := ⟨X.g_aaaa, []⟩
def g_aaaa_oaoaoaoa : Arg := ⟨X.g_aaaa, [.sl [.o, .o, .o, .o]]⟩
def g_aaaa_oaoavaoa : Arg := ⟨X.g_aaaa, [.sl [.o, .o, .v, .o]]⟩
def g_aaaa_oaoavava : Arg := ⟨X.g_aaaa, [.sl [.o, .o, .v, .v]]⟩
def g_aaaa_oavaoaoa : Arg := ⟨X.g_aaaa, [.sl [.o, .v, .o, .o]]⟩
def g_aaaa_oavavaoa : Arg := ⟨X.g_aaaa, [.sl [.o, .v, .v, .o]]⟩
def g_aaaa_oavavava : Arg := ⟨X.g_aaaa, [.sl [.o, .v, .v, .v]]⟩
def g_aaaa_oooo : Arg := ⟨X.g_aaaa, [.sl [.o, .o, .o, .o]]⟩
def g_aaaa_oovo : Arg := ⟨X.g_aaaa, [.sl [.o, .o, .v, .o]]⟩
def g_aaaa_oovv : Arg := ⟨X.g_aaaa, [.sl [.o, .o, .v, .v]]⟩
def g_aaaa_ovvo : Arg := ⟨X.g_aaaa, [.sl [.o, .v, .v, .o]]⟩
def g_aaaa_ovvv : Arg := ⟨X.g_aaaa, [.sl [.o, .v, .v, .v]]⟩
def g_aaaa_vavaoaoa : Arg := ⟨X.g_aaaa, [.sl [.v, .v, .o, .o]]⟩
def g_aaaa_vavavaoa : Arg := ⟨X.g_aaaa, [.sl [.v, .v, .v, .o]]⟩
def g_aaaa_vavavava : Arg := ⟨X.g_aaaa, [.sl [.v, .v, .v, .v]]⟩
def g_aaaa_vvvv : Arg := ⟨X.g_aaaa, [.sl [.v, .v, .v, .v]]⟩
def g_abab : Arg := ⟨X.g_abab, []⟩
def g_abab_oaoaoaoa : Arg := ⟨X.g_abab, [.sl [.o, .o, .o, .o]]⟩
def g_abab_oaoaoava : Arg := ⟨X.g_abab, [.sl [.o, .o, .o, .v]]⟩
def g_abab_oaoavaoa : Arg := ⟨X.g_abab, [.sl [.o, .o, .v, .o]]⟩
def g_abab_oaoavava : Arg := ⟨X.g_abab, [.sl [.o, .o, .v, .v]]⟩
def g_abab_oavaoaoa : Arg := ⟨X.g_abab, [.sl [.o, .v, .o, .o]]⟩
def g_abab_oavaoava : Arg := ⟨X.g_abab, [.sl [.o, .v, .o, .v]]⟩
def g_abab_oavavaoa : Arg := ⟨X.g_abab, [.sl [.o, .v, .v, .o]]⟩
def g_abab_oavavava : Arg := ⟨X.g_abab, [.sl [.o, .v, .v, .v]]⟩
def g_abab_oooo : Arg := ⟨X.g_abab, [.sl [.o, .o, .o, .o]]⟩
def g_abab_ooov : Arg := ⟨X.g_abab, [.sl [.o, .o, .o, .v]]⟩
def g_abab_oovo : Arg := ⟨X.g_abab, [.sl [.o, .o, .v, .o]]⟩
def g_abab_oovv : Arg := ⟨X.g_abab, [.sl [.o, .o, .v, .v]]⟩
def g_abab_ovov : Arg := ⟨X.g_abab, [.sl [.o, .v, .o, .v]]⟩
def g_abab_ovvo : Arg := ⟨X.g_abab, [.sl [.o, .v, .v, .o]]⟩
def g_abab_ovvv : Arg := ⟨X.g_abab, [.sl [.o, .v, .v, .v]]⟩
def g_abab_vaoaoaoa : Arg := ⟨X.g_abab, [.sl [.v, .o, .o, .o]]⟩
def g_abab_vaoaoava : Arg := ⟨X.g_abab, [.sl [.v, .o, .o, .v]]⟩
def g_abab_vaoavaoa : Arg := ⟨X.g_abab, [.sl [.v, .o, .v, .o]]⟩
def g_abab_vaoavava : Arg := ⟨X.g_abab, [.sl [.v, .o, .v, .v]]⟩
def g_abab_vavaoaoa : Arg := ⟨X.g_abab, [.sl [.v, .v, .o, .o]]⟩
def g_abab_vavaoava : Arg := ⟨X.g_abab, [.sl [.v, .v, .o, .v]]⟩
def g_abab_vavavaoa : Arg := ⟨X.g_abab, [.sl [.v, .v, .v, .o]]⟩
def g_abab_vavavava : Arg := ⟨X.g_abab, [.sl [.v, .v, .v, .v]]⟩
def g_abab_voov : Arg := ⟨X.g_abab, [.sl [.v, .o, .o, .v]]⟩
def g_abab_vovo : Arg := ⟨X.g_abab, [.sl [.v, .o, .v, .o]]⟩
def g_abab_vovv : Arg := ⟨X.g_abab, [.sl [.v, .o, .v, .v]]⟩
def g_abab_vvvv : Arg := ⟨X.g_abab, [.sl [.v, .v, .v, .v]]⟩
def g_bbbb : Arg := ⟨X.g_bbbb, []⟩
def g_bbbb_oaoaoaoa : Arg := ⟨X.g_bbbb, [.sl [.o, .o, .o, .o]]⟩
def g_bbbb_oaoavaoa : Arg := ⟨X.g_bbbb, [.sl [.o, .o, .v, .o]]⟩
def g_bbbb_oaoavava : Arg := ⟨X.g_bbbb, [.sl [.o, .o, .v, .v]]⟩
def g_bbbb_oavaoaoa : Arg := ⟨X.g_bbbb, [.sl [.o, .v, .o, .o]]⟩
def g_bbbb_oavavaoa : Arg := ⟨X.g_bbbb, [.sl [.o, .v, .v, .o]]⟩
def g_bbbb_oavavava : Arg := ⟨X.g_bbbb, [.sl [.o, .v, .v, .v]]⟩
def g_bbbb_oooo : Arg := ⟨X.g_bbbb, [.sl [.o, .o, .o, .o]]⟩
def g_bbbb_oovo : Arg := ⟨X.g_bbbb, [.sl [.o, .o, .v, .o]]⟩
def g_bbbb_oovv : Arg := ⟨X.g_bbbb, [.sl [.o, .o, .v, .v]]⟩
def g_bbbb_ovvo : Arg := ⟨X.g_bbbb, [.sl [.o, .v, .v, .o]]⟩
def g_bbbb_ovvv : Arg := ⟨X.g_bbbb, [.sl [.o, .v, .v, .v]]⟩
def g_bbbb_vavaoaoa : Arg := ⟨X.g_bbbb, [.sl [.v, .v, .o, .o]]⟩
def g_bbbb_vavavaoa : Arg := ⟨X.g_bbbb, [.sl [.v, .v, .v, .o]]⟩
def g_bbbb_vavavava : Arg := ⟨X.g_bbbb, [.sl [.v, .v, .v, .v]]⟩
def g_bbbb_vvvv : Arg := ⟨X.g_bbbb, [.sl [.v, .v, .v, .v]]⟩
def g_oaoaoaoa : Arg := ⟨X.g, [.sl [.o, .o, .o, .o]]⟩
def g_oavaoava : Arg := ⟨X.g, [.sl [.o, .v, .o, .v]]⟩
def g_oavavaoa : Arg := ⟨X.g, [.sl [.o, .v, .v, .o]]⟩
def g_occ : Arg := ⟨X.g_occ, []⟩
def g_oooo : Arg := ⟨X.g, [.sl [.o, .o, .o, .o]]⟩
def g_ooov : Arg := ⟨X.g, [.sl [.o, .o, .o, .v]]⟩
def g_oovo : Arg := ⟨X.g, [.sl [.o, .o, .v, .o]]⟩
def g_oovv : Arg := ⟨X.g, [.sl [.o, .o, .v, .v]]⟩
def g_ov : Arg := ⟨X.g_ov, []⟩
def g_ovoo : Arg := ⟨X.g, [.sl [.o, .v, .o, .o]]⟩
def g_ovov : Arg := ⟨X.g, [.sl [.o, .v, .o, .v]]⟩
def g_ovvo : Arg := ⟨X.g, [.sl [.o, .v, .v, .o]]⟩
def g_ovvv : Arg := ⟨X.g, [.sl [.o, .v, .v, .v]]⟩
def g_vavaoaoa : Arg := ⟨X.g, [.sl [.v, .v, .o, .o]]⟩
def g_vavavava : Arg := ⟨X.g, [.sl [.v, .v, .v, .v]]⟩
def g_virt : Arg := ⟨X.g_virt, []⟩
def g_vovo : Arg := ⟨X.g, [.sl [.v, .o, .v, .o]]⟩
def g_vvoo : Arg := ⟨X.g, [.sl [.v, .v, .o, .o]]⟩
def g_vvov : Arg := ⟨X.g, [.sl [.v, .v, .o, .v]]⟩
def g_vvvo : Arg := ⟨X.g, [.sl [.v, .v, .v, .o]]⟩
def g_vvvv : Arg := ⟨X.g, [.sl [.v, .v, .v, .v]]⟩
def l1 : Arg := ⟨X.l1, []⟩
def l2 : Arg := ⟨X.l2, []⟩
def l2_aaaa : Arg := ⟨X.l2_aaaa, []⟩
def l2_abab : Arg := ⟨X.l2_abab, []⟩
def l2_bbbb : Arg := ⟨X.l2_bbbb, []⟩
def nocc : Arg := ⟨X.nocc, []⟩
def nvir : Arg := ⟨X.nvir, []⟩
def nvirt : Arg := ⟨X.nvirt, []⟩
def pickle : Arg := ⟨X.pickle, []⟩
def quadruples_res : Arg := ⟨X.quadruples_res, []⟩
def reduced : Arg := ⟨X.reduced, []⟩
def resid_aaaa : Arg := ⟨X.resid_aaaa, []⟩
def roooovvvv : Arg := ⟨X.roooovvvv, []⟩
def rooovvv : Arg := ⟨X.rooovvv, []⟩
def roovv : Arg := ⟨X.roovv, []⟩
def rov : Arg := ⟨X.rov, []⟩
def rvvvooo : Arg := ⟨X.rvvvooo, []⟩
def rvvvooo_t345012 : Arg := ⟨X.rvvvooo, [.tr [3, 4, 5, 0, 1, 2]]⟩
def singles_res : Arg := ⟨X.singles_res, []⟩
def t : Arg := ⟨X.t, []⟩
def t1 : Arg := ⟨X.t1, []⟩
def t1_aa : Arg := ⟨X.t1_aa, []⟩
def t1_bar : Arg := ⟨X.t1_bar, []⟩
def t1_bb : Arg := ⟨X.t1_bb, []⟩
def t1_dag : Arg := ⟨X.t1_dag, []⟩
def t2 : Arg := ⟨X.t2, []⟩
def t2_aa : Arg := ⟨X.t2_aa, []⟩
def t2_aa_t2301 : Arg := ⟨X.t2_aa, [.tr [2, 3, 0, 1]]⟩
def t2_aaaa : Arg := ⟨X.t2_aaaa, []⟩
def t2_abab : Arg := ⟨X.t2_abab, []⟩
def t2_bbbb : Arg := ⟨X.t2_bbbb, []⟩
def t2_dag : Arg := ⟨X.t2_dag, []⟩
def t2_dag_t2301 : Arg := ⟨X.t2_dag, [.tr [2, 3, 0, 1]]⟩
def t2_t2301 : Arg := ⟨X.t2, [.tr [2, 3, 0, 1]]⟩
def t2dag : Arg := ⟨X.t2dag, []⟩
def t2test : Arg := ⟨X.t2test, []⟩
def t2test_t2301 : Arg := ⟨X.t2test, [.tr [2, 3, 0, 1]]⟩
def t3 : Arg := ⟨X.t3, []⟩
def t3_aaaaaa : Arg := ⟨X.t3_aaaaaa, []⟩
def t3_aabaab : Arg := ⟨X.t3_aabaab, []⟩
def t3_abbabb : Arg := ⟨X.t3_abbabb, []⟩
def t3_bbbbbb : Arg := ⟨X.t3_bbbbbb, []⟩
def t3_dag : Arg := ⟨X.t3_dag, []⟩
def t3resid : Arg := ⟨X.t3resid, []⟩
def t4 : Arg := ⟨X.t4, []⟩
def t4T : Arg := ⟨X.t4T, []⟩
def t4_aaaaaaaa_xxxxxxxx : Arg := ⟨X.t4_aaaaaaaa, [.sl [.all, .all, .all, .all, .all, .all, .all, .all]]⟩
def t4_aaabaaab_xxxxxxxx : Arg := ⟨X.t4_aaabaaab, [.sl [.all, .all, .all, .all, .all, .all, .all, .all]]⟩
def t4_aabbaabb_xxxxxxxx : Arg := ⟨X.t4_aabbaabb, [.sl [.all, .all, .all, .all, .all, .all, .all, .all]]⟩
def t4_abbbabbb_xxxxxxxx : Arg := ⟨X.t4_abbbabbb, [.sl [.all, .all, .all, .all, .all, .all, .all, .all]]⟩
def t4_bbbbbbbb_xxxxxxxx : Arg := ⟨X.t4_bbbbbbbb, [.sl [.all, .all, .all, .all, .all, .all, .all, .all]]⟩
def t4_resid_oo : Arg := ⟨X.t4_resid_oo, []⟩
def t4_t45670123 : Arg := ⟨X.t4, [.tr [4, 5, 6, 7, 0, 1, 2, 3]]⟩
def t_dag : Arg := ⟨X.t_dag, []⟩
def tmp0 : Arg := ⟨X.tmp0, []⟩
def tmp1 : Arg := ⟨X.tmp1, []⟩
def tmp10 : Arg := ⟨X.tmp10, []⟩
def tmp11 : Arg := ⟨X.tmp11, []⟩
def tmp12 : Arg := ⟨X.tmp12, []⟩
def tmp13 : Arg := ⟨X.tmp13, []⟩
def tmp14 : Arg := ⟨X.tmp14, []⟩
def tmp15 : Arg := ⟨X.tmp15, []⟩
def tmp16 : Arg := ⟨X.tmp16, []⟩
def tmp2 : Arg := ⟨X.tmp2, []⟩
def tmp3 : Arg := ⟨X.tmp3, []⟩
def tmp4 : Arg := ⟨X.tmp4, []⟩
def tmp5 : Arg := ⟨X.tmp5, []⟩
def tmp6 : Arg := ⟨X.tmp6, []⟩
def tmp7 : Arg := ⟨X.tmp7, []⟩
def tmp8 : Arg := ⟨X.tmp8, []⟩
def tmp9 : Arg := ⟨X.tmp9, []⟩
def triples_res : Arg := ⟨X.triples_res, []⟩
def v_m2 : Arg := ⟨X.v_m2, []⟩
def v_oo : Arg := ⟨X.v_oo, []⟩
def v_vo : Arg := ⟨X.v_vo, []⟩
def v_vv : Arg := ⟨X.v_vv, []⟩
end Q

/-! Functions called by others. -/

namespace F
def wicked_T3corr_antisym_T3 : Nat := 0
def antisym_t4resids_antisym_t4_residual : Nat := 1
def tamps_antisym_T2 : Nat := 2
def tamps_antisym_T3 : Nat := 3
def tamps_antisym_T4 : Nat := 4
def build_qf_correction_wnT2cubed_toT4 : Nat := 5
def build_qf_correction_wnT2cubed_toT2 : Nat := 6
def build_qf_correction_wnT2T3_toT4 : Nat := 7
def build_qf_correction_wnT2T3_toT2 : Nat := 8
def cc_energy_optWnT2sqr : Nat := 9
def cc_energy_optWnT3 : Nat := 10
def XCCDbasebuilder_get_xcc7residual : Nat := 11
def XCCDbasebuilder_get_xcc8residual : Nat := 12
def XCCDbasebuilder_get_xcc9residual : Nat := 13
end F

end Verif.Shape
