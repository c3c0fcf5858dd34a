import Verif.Shape.Names

/-!
# Shape programs of tamps.py, wicked_T3corr.py, antisym_t4resids.py (generated by tools/shapegen.py)

Every statement of the functions with the subscripts and operands as written; see `Verif.Shape.Core`.
-/

set_option maxRecDepth 100000

namespace Verif.Shape.Prog

open Verif.Shape

/-- `tamps.py` 53-61: `antisym_T2`; 4 einsum calls. -/
def tamps_antisym_T2 : Fn where
  params := [X.Roovv, X.nocc, X.nvir]
  body := [
    .dim X.nocc X.Roovv 0,
    .dim X.nvir X.Roovv 2,
    set1 X.Roovv_anti (.zeros [X.nocc, X.nocc, X.nvir, X.nvir]),
    aug1 X.Roovv_anti (ein1 L.ijab L.ijab Q.Roovv),
    aug1 X.Roovv_anti (ein1 L.ijab L.jiab Q.Roovv),
    aug1 X.Roovv_anti (ein1 L.ijab L.ijba Q.Roovv),
    aug1 X.Roovv_anti (ein1 L.ijab L.jiba Q.Roovv)]
  ret := [Q.Roovv_anti]

/-- `tamps.py` 65-107: `antisym_T3`; 36 einsum calls. -/
def tamps_antisym_T3 : Fn where
  params := [X.Rooovvv, X.nocc, X.nvir]
  body := [
    .dim X.nocc X.Rooovvv 0,
    .dim X.nvir X.Rooovvv 3,
    set1 X.Rooovvv_anti (.zeros [X.nocc, X.nocc, X.nocc, X.nvir, X.nvir, X.nvir]),
    aug1 X.Rooovvv_anti (ein1 L.ijkabc L.ijkabc Q.Rooovvv),
    aug1 X.Rooovvv_anti (ein1 L.ijkabc L.ijkacb Q.Rooovvv),
    aug1 X.Rooovvv_anti (ein1 L.ijkabc L.ijkbac Q.Rooovvv),
    aug1 X.Rooovvv_anti (ein1 L.ijkabc L.ijkbca Q.Rooovvv),
    aug1 X.Rooovvv_anti (ein1 L.ijkabc L.ijkcab Q.Rooovvv),
    aug1 X.Rooovvv_anti (ein1 L.ijkabc L.ijkcba Q.Rooovvv),
    aug1 X.Rooovvv_anti (ein1 L.ijkabc L.ikjabc Q.Rooovvv),
    aug1 X.Rooovvv_anti (ein1 L.ijkabc L.ikjacb Q.Rooovvv),
    aug1 X.Rooovvv_anti (ein1 L.ijkabc L.ikjbac Q.Rooovvv),
    aug1 X.Rooovvv_anti (ein1 L.ijkabc L.ikjbca Q.Rooovvv),
    aug1 X.Rooovvv_anti (ein1 L.ijkabc L.ikjcab Q.Rooovvv),
    aug1 X.Rooovvv_anti (ein1 L.ijkabc L.ikjcba Q.Rooovvv),
    aug1 X.Rooovvv_anti (ein1 L.ijkabc L.jikabc Q.Rooovvv),
    aug1 X.Rooovvv_anti (ein1 L.ijkabc L.jikacb Q.Rooovvv),
    aug1 X.Rooovvv_anti (ein1 L.ijkabc L.jikbac Q.Rooovvv),
    aug1 X.Rooovvv_anti (ein1 L.ijkabc L.jikbca Q.Rooovvv),
    aug1 X.Rooovvv_anti (ein1 L.ijkabc L.jikcab Q.Rooovvv),
    aug1 X.Rooovvv_anti (ein1 L.ijkabc L.jikcba Q.Rooovvv),
    aug1 X.Rooovvv_anti (ein1 L.ijkabc L.jkiabc Q.Rooovvv),
    aug1 X.Rooovvv_anti (ein1 L.ijkabc L.jkiacb Q.Rooovvv),
    aug1 X.Rooovvv_anti (ein1 L.ijkabc L.jkibac Q.Rooovvv),
    aug1 X.Rooovvv_anti (ein1 L.ijkabc L.jkibca Q.Rooovvv),
    aug1 X.Rooovvv_anti (ein1 L.ijkabc L.jkicab Q.Rooovvv),
    aug1 X.Rooovvv_anti (ein1 L.ijkabc L.jkicba Q.Rooovvv),
    aug1 X.Rooovvv_anti (ein1 L.ijkabc L.kijabc Q.Rooovvv),
    aug1 X.Rooovvv_anti (ein1 L.ijkabc L.kijacb Q.Rooovvv),
    aug1 X.Rooovvv_anti (ein1 L.ijkabc L.kijbac Q.Rooovvv),
    aug1 X.Rooovvv_anti (ein1 L.ijkabc L.kijbca Q.Rooovvv),
    aug1 X.Rooovvv_anti (ein1 L.ijkabc L.kijcab Q.Rooovvv),
    aug1 X.Rooovvv_anti (ein1 L.ijkabc L.kijcba Q.Rooovvv),
    aug1 X.Rooovvv_anti (ein1 L.ijkabc L.kjiabc Q.Rooovvv),
    aug1 X.Rooovvv_anti (ein1 L.ijkabc L.kjiacb Q.Rooovvv),
    aug1 X.Rooovvv_anti (ein1 L.ijkabc L.kjibac Q.Rooovvv),
    aug1 X.Rooovvv_anti (ein1 L.ijkabc L.kjibca Q.Rooovvv),
    aug1 X.Rooovvv_anti (ein1 L.ijkabc L.kjicab Q.Rooovvv),
    aug1 X.Rooovvv_anti (ein1 L.ijkabc L.kjicba Q.Rooovvv)]
  ret := [Q.Rooovvv_anti]

/-- `tamps.py` 110-692: `antisym_T4`; 576 einsum calls. -/
def tamps_antisym_T4 : Fn where
  params := [X.Roooovvvv, X.nocc, X.nvirt]
  body := [
    .dim X.nocc X.Roooovvvv 0,
    .dim X.nvirt X.Roooovvvv 4,
    set1 X.Roooovvvv_anti (.zeros [X.nocc, X.nocc, X.nocc, X.nocc, X.nvirt, X.nvirt, X.nvirt, X.nvirt]),
    set1 X.Roooovvvv_anti (ein1 L.ijklabcd L.ijklabcd Q.Roooovvvv),
    aug1 X.Roooovvvv_anti (ein1 L.ijklabcd L.ijklabdc Q.Roooovvvv),
    aug1 X.Roooovvvv_anti (ein1 L.ijklabcd L.ijklacbd Q.Roooovvvv),
    aug1 X.Roooovvvv_anti (ein1 L.ijklabcd L.ijklacdb Q.Roooovvvv),
    aug1 X.Roooovvvv_anti (ein1 L.ijklabcd L.ijkladcb Q.Roooovvvv),
    aug1 X.Roooovvvv_anti (ein1 L.ijklabcd L.ijkladbc Q.Roooovvvv),
    aug1 X.Roooovvvv_anti (ein1 L.ijklabcd L.ijklbacd Q.Roooovvvv),
    aug1 X.Roooovvvv_anti (ein1 L.ijklabcd L.ijklbadc Q.Roooovvvv),
    aug1 X.Roooovvvv_anti (ein1 L.ijklabcd L.ijklbcad Q.Roooovvvv),
    aug1 X.Roooovvvv_anti (ein1 L.ijklabcd L.ijklbcda Q.Roooovvvv),
    aug1 X.Roooovvvv_anti (ein1 L.ijklabcd L.ijklbdca Q.Roooovvvv),
    aug1 X.Roooovvvv_anti (ein1 L.ijklabcd L.ijklbdac Q.Roooovvvv),
    aug1 X.Roooovvvv_anti (ein1 L.ijklabcd L.ijklcbad Q.Roooovvvv),
    aug1 X.Roooovvvv_anti (ein1 L.ijklabcd L.ijklcbda Q.Roooovvvv),
    aug1 X.Roooovvvv_anti (ein1 L.ijklabcd L.ijklcabd Q.Roooovvvv),
    aug1 X.Roooovvvv_anti (ein1 L.ijklabcd L.ijklcadb Q.Roooovvvv),
    aug1 X.Roooovvvv_anti (ein1 L.ijklabcd L.ijklcdab Q.Roooovvvv),
    aug1 X.Roooovvvv_anti (ein1 L.ijklabcd L.ijklcdba Q.Roooovvvv),
    aug1 X.Roooovvvv_anti (ein1 L.ijklabcd L.ijkldbca Q.Roooovvvv),
    aug1 X.Roooovvvv_anti (ein1 L.ijklabcd L.ijkldbac Q.Roooovvvv),
    aug1 X.Roooovvvv_anti (ein1 L.ijklabcd L.ijkldcba Q.Roooovvvv),
    aug1 X.Roooovvvv_anti (ein1 L.ijklabcd L.ijkldcab Q.Roooovvvv),
    aug1 X.Roooovvvv_anti (ein1 L.ijklabcd L.ijkldacb Q.Roooovvvv),
    aug1 X.Roooovvvv_anti (ein1 L.ijklabcd L.ijkldabc Q.Roooovvvv),
    aug1 X.Roooovvvv_anti (ein1 L.ijklabcd L.ijlkabcd Q.Roooovvvv),
    aug1 X.Roooovvvv_anti (ein1 L.ijklabcd L.ijlkabdc Q.Roooovvvv),
    aug1 X.Roooovvvv_anti (ein1 L.ijklabcd L.ijlkacbd Q.Roooovvvv),
    aug1 X.Roooovvvv_anti (ein1 L.ijklabcd L.ijlkacdb Q.Roooovvvv),
    aug1 X.Roooovvvv_anti (ein1 L.ijklabcd L.ijlkadcb Q.Roooovvvv),
    aug1 X.Roooovvvv_anti (ein1 L.ijklabcd L.ijlkadbc Q.Roooovvvv),
    aug1 X.Roooovvvv_anti (ein1 L.ijklabcd L.ijlkbacd Q.Roooovvvv),
    aug1 X.Roooovvvv_anti (ein1 L.ijklabcd L.ijlkbadc Q.Roooovvvv),
    aug1 X.Roooovvvv_anti (ein1 L.ijklabcd L.ijlkbcad Q.Roooovvvv),
    aug1 X.Roooovvvv_anti (ein1 L.ijklabcd L.ijlkbcda Q.Roooovvvv),
    aug1 X.Roooovvvv_anti (ein1 L.ijklabcd L.ijlkbdca Q.Roooovvvv),
    aug1 X.Roooovvvv_anti (ein1 L.ijklabcd L.ijlkbdac Q.Roooovvvv),
    aug1 X.Roooovvvv_anti (ein1 L.ijklabcd L.ijlkcbad Q.Roooovvvv),
    aug1 X.Roooovvvv_anti (ein1 L.ijklabcd L.ijlkcbda Q.Roooovvvv),
    aug1 X.Roooovvvv_anti (ein1 L.ijklabcd L.ijlkcabd Q.Roooovvvv),
    aug1 X.Roooovvvv_anti (ein1 L.ijklabcd L.ijlkcadb Q.Roooovvvv),
    aug1 X.Roooovvvv_anti (ein1 L.ijklabcd L.ijlkcdab Q.Roooovvvv),
    aug1 X.Roooovvvv_anti (ein1 L.ijklabcd L.ijlkcdba Q.Roooovvvv),
    aug1 X.Roooovvvv_anti (ein1 L.ijklabcd L.ijlkdbca Q.Roooovvvv),
    aug1 X.Roooovvvv_anti (ein1 L.ijklabcd L.ijlkdbac Q.Roooovvvv),
    aug1 X.Roooovvvv_anti (ein1 L.ijklabcd L.ijlkdcba Q.Roooovvvv),
    aug1 X.Roooovvvv_anti (ein1 L.ijklabcd L.ijlkdcab Q.Roooovvvv),
    aug1 X.Roooovvvv_anti (ein1 L.ijklabcd L.ijlkdacb Q.Roooovvvv),
    aug1 X.Roooovvvv_anti (ein1 L.ijklabcd L.ijlkdabc Q.Roooovvvv),
    aug1 X.Roooovvvv_anti (ein1 L.ijklabcd L.ikjlabcd Q.Roooovvvv),
    aug1 X.Roooovvvv_anti (ein1 L.ijklabcd L.ikjlabdc Q.Roooovvvv),
    aug1 X.Roooovvvv_anti (ein1 L.ijklabcd L.ikjlacbd Q.Roooovvvv),
    aug1 X.Roooovvvv_anti (ein1 L.ijklabcd L.ikjlacdb Q.Roooovvvv),
    aug1 X.Roooovvvv_anti (ein1 L.ijklabcd L.ikjladcb Q.Roooovvvv),
    aug1 X.Roooovvvv_anti (ein1 L.ijklabcd L.ikjladbc Q.Roooovvvv),
    aug1 X.Roooovvvv_anti (ein1 L.ijklabcd L.ikjlbacd Q.Roooovvvv),
    aug1 X.Roooovvvv_anti (ein1 L.ijklabcd L.ikjlbadc Q.Roooovvvv),
    aug1 X.Roooovvvv_anti (ein1 L.ijklabcd L.ikjlbcad Q.Roooovvvv),
    aug1 X.Roooovvvv_anti (ein1 L.ijklabcd L.ikjlbcda Q.Roooovvvv),
    aug1 X.Roooovvvv_anti (ein1 L.ijklabcd L.ikjlbdca Q.Roooovvvv),
    aug1 X.Roooovvvv_anti (ein1 L.ijklabcd L.ikjlbdac Q.Roooovvvv),
    aug1 X.Roooovvvv_anti (ein1 L.ijklabcd L.ikjlcbad Q.Roooovvvv),
    aug1 X.Roooovvvv_anti (ein1 L.ijklabcd L.ikjlcbda Q.Roooovvvv),
    aug1 X.Roooovvvv_anti (ein1 L.ijklabcd L.ikjlcabd Q.Roooovvvv),
    aug1 X.Roooovvvv_anti (ein1 L.ijklabcd L.ikjlcadb Q.Roooovvvv),
    aug1 X.Roooovvvv_anti (ein1 L.ijklabcd L.ikjlcdab Q.Roooovvvv),
    aug1 X.Roooovvvv_anti (ein1 L.ijklabcd L.ikjlcdba Q.Roooovvvv),
    aug1 X.Roooovvvv_anti (ein1 L.ijklabcd L.ikjldbca Q.Roooovvvv),
    aug1 X.Roooovvvv_anti (ein1 L.ijklabcd L.ikjldbac Q.Roooovvvv),
    aug1 X.Roooovvvv_anti (ein1 L.ijklabcd L.ikjldcba Q.Roooovvvv),
    aug1 X.Roooovvvv_anti (ein1 L.ijklabcd L.ikjldcab Q.Roooovvvv),
    aug1 X.Roooovvvv_anti (ein1 L.ijklabcd L.ikjldacb Q.Roooovvvv),
    aug1 X.Roooovvvv_anti (ein1 L.ijklabcd L.ikjldabc Q.Roooovvvv),
    aug1 X.Roooovvvv_anti (ein1 L.ijklabcd L.ikljabcd Q.Roooovvvv),
    aug1 X.Roooovvvv_anti (ein1 L.ijklabcd L.ikljabdc Q.Roooovvvv),
    aug1 X.Roooovvvv_anti (ein1 L.ijklabcd L.ikljacbd Q.Roooovvvv),
    aug1 X.Roooovvvv_anti (ein1 L.ijklabcd L.ikljacdb Q.Roooovvvv),
    aug1 X.Roooovvvv_anti (ein1 L.ijklabcd L.ikljadcb Q.Roooovvvv),
    aug1 X.Roooovvvv_anti (ein1 L.ijklabcd L.ikljadbc Q.Roooovvvv),
    aug1 X.Roooovvvv_anti (ein1 L.ijklabcd L.ikljbacd Q.Roooovvvv),
    aug1 X.Roooovvvv_anti (ein1 L.ijklabcd L.ikljbadc Q.Roooovvvv),
    aug1 X.Roooovvvv_anti (ein1 L.ijklabcd L.ikljbcad Q.Roooovvvv),
    aug1 X.Roooovvvv_anti (ein1 L.ijklabcd L.ikljbcda Q.Roooovvvv),
    aug1 X.Roooovvvv_anti (ein1 L.ijklabcd L.ikljbdca Q.Roooovvvv),
    aug1 X.Roooovvvv_anti (ein1 L.ijklabcd L.ikljbdac Q.Roooovvvv),
    aug1 X.Roooovvvv_anti (ein1 L.ijklabcd L.ikljcbad Q.Roooovvvv),
    aug1 X.Roooovvvv_anti (ein1 L.ijklabcd L.ikljcbda Q.Roooovvvv),
    aug1 X.Roooovvvv_anti (ein1 L.ijklabcd L.ikljcabd Q.Roooovvvv),
    aug1 X.Roooovvvv_anti (ein1 L.ijklabcd L.ikljcadb Q.Roooovvvv),
    aug1 X.Roooovvvv_anti (ein1 L.ijklabcd L.ikljcdab Q.Roooovvvv),
    aug1 X.Roooovvvv_anti (ein1 L.ijklabcd L.ikljcdba Q.Roooovvvv),
    aug1 X.Roooovvvv_anti (ein1 L.ijklabcd L.ikljdbca Q.Roooovvvv),
    aug1 X.Roooovvvv_anti (ein1 L.ijklabcd L.ikljdbac Q.Roooovvvv),
    aug1 X.Roooovvvv_anti (ein1 L.ijklabcd L.ikljdcba Q.Roooovvvv),
    aug1 X.Roooovvvv_anti (ein1 L.ijklabcd L.ikljdcab Q.Roooovvvv),
    aug1 X.Roooovvvv_anti (ein1 L.ijklabcd L.ikljdacb Q.Roooovvvv),
    aug1 X.Roooovvvv_anti (ein1 L.ijklabcd L.ikljdabc Q.Roooovvvv),
    aug1 X.Roooovvvv_anti (ein1 L.ijklabcd L.ilkjabcd Q.Roooovvvv),
    aug1 X.Roooovvvv_anti (ein1 L.ijklabcd L.ilkjabdc Q.Roooovvvv),
    aug1 X.Roooovvvv_anti (ein1 L.ijklabcd L.ilkjacbd Q.Roooovvvv),
    aug1 X.Roooovvvv_anti (ein1 L.ijklabcd L.ilkjacdb Q.Roooovvvv),
    aug1 X.Roooovvvv_anti (ein1 L.ijklabcd L.ilkjadcb Q.Roooovvvv),
    aug1 X.Roooovvvv_anti (ein1 L.ijklabcd L.ilkjadbc Q.Roooovvvv),
    aug1 X.Roooovvvv_anti (ein1 L.ijklabcd L.ilkjbacd Q.Roooovvvv),
    aug1 X.Roooovvvv_anti (ein1 L.ijklabcd L.ilkjbadc Q.Roooovvvv),
    aug1 X.Roooovvvv_anti (ein1 L.ijklabcd L.ilkjbcad Q.Roooovvvv),
    aug1 X.Roooovvvv_anti (ein1 L.ijklabcd L.ilkjbcda Q.Roooovvvv),
    aug1 X.Roooovvvv_anti (ein1 L.ijklabcd L.ilkjbdca Q.Roooovvvv),
    aug1 X.Roooovvvv_anti (ein1 L.ijklabcd L.ilkjbdac Q.Roooovvvv),
    aug1 X.Roooovvvv_anti (ein1 L.ijklabcd L.ilkjcbad Q.Roooovvvv),
    aug1 X.Roooovvvv_anti (ein1 L.ijklabcd L.ilkjcbda Q.Roooovvvv),
    aug1 X.Roooovvvv_anti (ein1 L.ijklabcd L.ilkjcabd Q.Roooovvvv),
    aug1 X.Roooovvvv_anti (ein1 L.ijklabcd L.ilkjcadb Q.Roooovvvv),
    aug1 X.Roooovvvv_anti (ein1 L.ijklabcd L.ilkjcdab Q.Roooovvvv),
    aug1 X.Roooovvvv_anti (ein1 L.ijklabcd L.ilkjcdba Q.Roooovvvv),
    aug1 X.Roooovvvv_anti (ein1 L.ijklabcd L.ilkjdbca Q.Roooovvvv),
    aug1 X.Roooovvvv_anti (ein1 L.ijklabcd L.ilkjdbac Q.Roooovvvv),
    aug1 X.Roooovvvv_anti (ein1 L.ijklabcd L.ilkjdcba Q.Roooovvvv),
    aug1 X.Roooovvvv_anti (ein1 L.ijklabcd L.ilkjdcab Q.Roooovvvv),
    aug1 X.Roooovvvv_anti (ein1 L.ijklabcd L.ilkjdacb Q.Roooovvvv),
    aug1 X.Roooovvvv_anti (ein1 L.ijklabcd L.ilkjdabc Q.Roooovvvv),
    aug1 X.Roooovvvv_anti (ein1 L.ijklabcd L.iljkabcd Q.Roooovvvv),
    aug1 X.Roooovvvv_anti (ein1 L.ijklabcd L.iljkabdc Q.Roooovvvv),
    aug1 X.Roooovvvv_anti (ein1 L.ijklabcd L.iljkacbd Q.Roooovvvv),
    aug1 X.Roooovvvv_anti (ein1 L.ijklabcd L.iljkacdb Q.Roooovvvv),
    aug1 X.Roooovvvv_anti (ein1 L.ijklabcd L.iljkadcb Q.Roooovvvv),
    aug1 X.Roooovvvv_anti (ein1 L.ijklabcd L.iljkadbc Q.Roooovvvv),
    aug1 X.Roooovvvv_anti (ein1 L.ijklabcd L.iljkbacd Q.Roooovvvv),
    aug1 X.Roooovvvv_anti (ein1 L.ijklabcd L.iljkbadc Q.Roooovvvv),
    aug1 X.Roooovvvv_anti (ein1 L.ijklabcd L.iljkbcad Q.Roooovvvv),
    aug1 X.Roooovvvv_anti (ein1 L.ijklabcd L.iljkbcda Q.Roooovvvv),
    aug1 X.Roooovvvv_anti (ein1 L.ijklabcd L.iljkbdca Q.Roooovvvv),
    aug1 X.Roooovvvv_anti (ein1 L.ijklabcd L.iljkbdac Q.Roooovvvv),
    aug1 X.Roooovvvv_anti (ein1 L.ijklabcd L.iljkcbad Q.Roooovvvv),
    aug1 X.Roooovvvv_anti (ein1 L.ijklabcd L.iljkcbda Q.Roooovvvv),
    aug1 X.Roooovvvv_anti (ein1 L.ijklabcd L.iljkcabd Q.Roooovvvv),
    aug1 X.Roooovvvv_anti (ein1 L.ijklabcd L.iljkcadb Q.Roooovvvv),
    aug1 X.Roooovvvv_anti (ein1 L.ijklabcd L.iljkcdab Q.Roooovvvv),
    aug1 X.Roooovvvv_anti (ein1 L.ijklabcd L.iljkcdba Q.Roooovvvv),
    aug1 X.Roooovvvv_anti (ein1 L.ijklabcd L.iljkdbca Q.Roooovvvv),
    aug1 X.Roooovvvv_anti (ein1 L.ijklabcd L.iljkdbac Q.Roooovvvv),
    aug1 X.Roooovvvv_anti (ein1 L.ijklabcd L.iljkdcba Q.Roooovvvv),
    aug1 X.Roooovvvv_anti (ein1 L.ijklabcd L.iljkdcab Q.Roooovvvv),
    aug1 X.Roooovvvv_anti (ein1 L.ijklabcd L.iljkdacb Q.Roooovvvv),
    aug1 X.Roooovvvv_anti (ein1 L.ijklabcd L.iljkdabc Q.Roooovvvv),
    aug1 X.Roooovvvv_anti (ein1 L.ijklabcd L.jiklabcd Q.Roooovvvv),
    aug1 X.Roooovvvv_anti (ein1 L.ijklabcd L.jiklabdc Q.Roooovvvv),
    aug1 X.Roooovvvv_anti (ein1 L.ijklabcd L.jiklacbd Q.Roooovvvv),
    aug1 X.Roooovvvv_anti (ein1 L.ijklabcd L.jiklacdb Q.Roooovvvv),
    aug1 X.Roooovvvv_anti (ein1 L.ijklabcd L.jikladcb Q.Roooovvvv),
    aug1 X.Roooovvvv_anti (ein1 L.ijklabcd L.jikladbc Q.Roooovvvv),
    aug1 X.Roooovvvv_anti (ein1 L.ijklabcd L.jiklbacd Q.Roooovvvv),
    aug1 X.Roooovvvv_anti (ein1 L.ijklabcd L.jiklbadc Q.Roooovvvv),
    aug1 X.Roooovvvv_anti (ein1 L.ijklabcd L.jiklbcad Q.Roooovvvv),
    aug1 X.Roooovvvv_anti (ein1 L.ijklabcd L.jiklbcda Q.Roooovvvv),
    aug1 X.Roooovvvv_anti (ein1 L.ijklabcd L.jiklbdca Q.Roooovvvv),
    aug1 X.Roooovvvv_anti (ein1 L.ijklabcd L.jiklbdac Q.Roooovvvv),
    aug1 X.Roooovvvv_anti (ein1 L.ijklabcd L.jiklcbad Q.Roooovvvv),
    aug1 X.Roooovvvv_anti (ein1 L.ijklabcd L.jiklcbda Q.Roooovvvv),
    aug1 X.Roooovvvv_anti (ein1 L.ijklabcd L.jiklcabd Q.Roooovvvv),
    aug1 X.Roooovvvv_anti (ein1 L.ijklabcd L.jiklcadb Q.Roooovvvv),
    aug1 X.Roooovvvv_anti (ein1 L.ijklabcd L.jiklcdab Q.Roooovvvv),
    aug1 X.Roooovvvv_anti (ein1 L.ijklabcd L.jiklcdba Q.Roooovvvv),
    aug1 X.Roooovvvv_anti (ein1 L.ijklabcd L.jikldbca Q.Roooovvvv),
    aug1 X.Roooovvvv_anti (ein1 L.ijklabcd L.jikldbac Q.Roooovvvv),
    aug1 X.Roooovvvv_anti (ein1 L.ijklabcd L.jikldcba Q.Roooovvvv),
    aug1 X.Roooovvvv_anti (ein1 L.ijklabcd L.jikldcab Q.Roooovvvv),
    aug1 X.Roooovvvv_anti (ein1 L.ijklabcd L.jikldacb Q.Roooovvvv),
    aug1 X.Roooovvvv_anti (ein1 L.ijklabcd L.jikldabc Q.Roooovvvv),
    aug1 X.Roooovvvv_anti (ein1 L.ijklabcd L.jilkabcd Q.Roooovvvv),
    aug1 X.Roooovvvv_anti (ein1 L.ijklabcd L.jilkabdc Q.Roooovvvv),
    aug1 X.Roooovvvv_anti (ein1 L.ijklabcd L.jilkacbd Q.Roooovvvv),
    aug1 X.Roooovvvv_anti (ein1 L.ijklabcd L.jilkacdb Q.Roooovvvv),
    aug1 X.Roooovvvv_anti (ein1 L.ijklabcd L.jilkadcb Q.Roooovvvv),
    aug1 X.Roooovvvv_anti (ein1 L.ijklabcd L.jilkadbc Q.Roooovvvv),
    aug1 X.Roooovvvv_anti (ein1 L.ijklabcd L.jilkbacd Q.Roooovvvv),
    aug1 X.Roooovvvv_anti (ein1 L.ijklabcd L.jilkbadc Q.Roooovvvv),
    aug1 X.Roooovvvv_anti (ein1 L.ijklabcd L.jilkbcad Q.Roooovvvv),
    aug1 X.Roooovvvv_anti (ein1 L.ijklabcd L.jilkbcda Q.Roooovvvv),
    aug1 X.Roooovvvv_anti (ein1 L.ijklabcd L.jilkbdca Q.Roooovvvv),
    aug1 X.Roooovvvv_anti (ein1 L.ijklabcd L.jilkbdac Q.Roooovvvv),
    aug1 X.Roooovvvv_anti (ein1 L.ijklabcd L.jilkcbad Q.Roooovvvv),
    aug1 X.Roooovvvv_anti (ein1 L.ijklabcd L.jilkcbda Q.Roooovvvv),
    aug1 X.Roooovvvv_anti (ein1 L.ijklabcd L.jilkcabd Q.Roooovvvv),
    aug1 X.Roooovvvv_anti (ein1 L.ijklabcd L.jilkcadb Q.Roooovvvv),
    aug1 X.Roooovvvv_anti (ein1 L.ijklabcd L.jilkcdab Q.Roooovvvv),
    aug1 X.Roooovvvv_anti (ein1 L.ijklabcd L.jilkcdba Q.Roooovvvv),
    aug1 X.Roooovvvv_anti (ein1 L.ijklabcd L.jilkdbca Q.Roooovvvv),
    aug1 X.Roooovvvv_anti (ein1 L.ijklabcd L.jilkdbac Q.Roooovvvv),
    aug1 X.Roooovvvv_anti (ein1 L.ijklabcd L.jilkdcba Q.Roooovvvv),
    aug1 X.Roooovvvv_anti (ein1 L.ijklabcd L.jilkdcab Q.Roooovvvv),
    aug1 X.Roooovvvv_anti (ein1 L.ijklabcd L.jilkdacb Q.Roooovvvv),
    aug1 X.Roooovvvv_anti (ein1 L.ijklabcd L.jilkdabc Q.Roooovvvv),
    aug1 X.Roooovvvv_anti (ein1 L.ijklabcd L.jkilabcd Q.Roooovvvv),
    aug1 X.Roooovvvv_anti (ein1 L.ijklabcd L.jkilabdc Q.Roooovvvv),
    aug1 X.Roooovvvv_anti (ein1 L.ijklabcd L.jkilacbd Q.Roooovvvv),
    aug1 X.Roooovvvv_anti (ein1 L.ijklabcd L.jkilacdb Q.Roooovvvv),
    aug1 X.Roooovvvv_anti (ein1 L.ijklabcd L.jkiladcb Q.Roooovvvv),
    aug1 X.Roooovvvv_anti (ein1 L.ijklabcd L.jkiladbc Q.Roooovvvv),
    aug1 X.Roooovvvv_anti (ein1 L.ijklabcd L.jkilbacd Q.Roooovvvv),
    aug1 X.Roooovvvv_anti (ein1 L.ijklabcd L.jkilbadc Q.Roooovvvv),
    aug1 X.Roooovvvv_anti (ein1 L.ijklabcd L.jkilbcad Q.Roooovvvv),
    aug1 X.Roooovvvv_anti (ein1 L.ijklabcd L.jkilbcda Q.Roooovvvv),
    aug1 X.Roooovvvv_anti (ein1 L.ijklabcd L.jkilbdca Q.Roooovvvv),
    aug1 X.Roooovvvv_anti (ein1 L.ijklabcd L.jkilbdac Q.Roooovvvv),
    aug1 X.Roooovvvv_anti (ein1 L.ijklabcd L.jkilcbad Q.Roooovvvv),
    aug1 X.Roooovvvv_anti (ein1 L.ijklabcd L.jkilcbda Q.Roooovvvv),
    aug1 X.Roooovvvv_anti (ein1 L.ijklabcd L.jkilcabd Q.Roooovvvv),
    aug1 X.Roooovvvv_anti (ein1 L.ijklabcd L.jkilcadb Q.Roooovvvv),
    aug1 X.Roooovvvv_anti (ein1 L.ijklabcd L.jkilcdab Q.Roooovvvv),
    aug1 X.Roooovvvv_anti (ein1 L.ijklabcd L.jkilcdba Q.Roooovvvv),
    aug1 X.Roooovvvv_anti (ein1 L.ijklabcd L.jkildbca Q.Roooovvvv),
    aug1 X.Roooovvvv_anti (ein1 L.ijklabcd L.jkildbac Q.Roooovvvv),
    aug1 X.Roooovvvv_anti (ein1 L.ijklabcd L.jkildcba Q.Roooovvvv),
    aug1 X.Roooovvvv_anti (ein1 L.ijklabcd L.jkildcab Q.Roooovvvv),
    aug1 X.Roooovvvv_anti (ein1 L.ijklabcd L.jkildacb Q.Roooovvvv),
    aug1 X.Roooovvvv_anti (ein1 L.ijklabcd L.jkildabc Q.Roooovvvv),
    aug1 X.Roooovvvv_anti (ein1 L.ijklabcd L.jkliabcd Q.Roooovvvv),
    aug1 X.Roooovvvv_anti (ein1 L.ijklabcd L.jkliabdc Q.Roooovvvv),
    aug1 X.Roooovvvv_anti (ein1 L.ijklabcd L.jkliacbd Q.Roooovvvv),
    aug1 X.Roooovvvv_anti (ein1 L.ijklabcd L.jkliacdb Q.Roooovvvv),
    aug1 X.Roooovvvv_anti (ein1 L.ijklabcd L.jkliadcb Q.Roooovvvv),
    aug1 X.Roooovvvv_anti (ein1 L.ijklabcd L.jkliadbc Q.Roooovvvv),
    aug1 X.Roooovvvv_anti (ein1 L.ijklabcd L.jklibacd Q.Roooovvvv),
    aug1 X.Roooovvvv_anti (ein1 L.ijklabcd L.jklibadc Q.Roooovvvv),
    aug1 X.Roooovvvv_anti (ein1 L.ijklabcd L.jklibcad Q.Roooovvvv),
    aug1 X.Roooovvvv_anti (ein1 L.ijklabcd L.jklibcda Q.Roooovvvv),
    aug1 X.Roooovvvv_anti (ein1 L.ijklabcd L.jklibdca Q.Roooovvvv),
    aug1 X.Roooovvvv_anti (ein1 L.ijklabcd L.jklibdac Q.Roooovvvv),
    aug1 X.Roooovvvv_anti (ein1 L.ijklabcd L.jklicbad Q.Roooovvvv),
    aug1 X.Roooovvvv_anti (ein1 L.ijklabcd L.jklicbda Q.Roooovvvv),
    aug1 X.Roooovvvv_anti (ein1 L.ijklabcd L.jklicabd Q.Roooovvvv),
    aug1 X.Roooovvvv_anti (ein1 L.ijklabcd L.jklicadb Q.Roooovvvv),
    aug1 X.Roooovvvv_anti (ein1 L.ijklabcd L.jklicdab Q.Roooovvvv),
    aug1 X.Roooovvvv_anti (ein1 L.ijklabcd L.jklicdba Q.Roooovvvv),
    aug1 X.Roooovvvv_anti (ein1 L.ijklabcd L.jklidbca Q.Roooovvvv),
    aug1 X.Roooovvvv_anti (ein1 L.ijklabcd L.jklidbac Q.Roooovvvv),
    aug1 X.Roooovvvv_anti (ein1 L.ijklabcd L.jklidcba Q.Roooovvvv),
    aug1 X.Roooovvvv_anti (ein1 L.ijklabcd L.jklidcab Q.Roooovvvv),
    aug1 X.Roooovvvv_anti (ein1 L.ijklabcd L.jklidacb Q.Roooovvvv),
    aug1 X.Roooovvvv_anti (ein1 L.ijklabcd L.jklidabc Q.Roooovvvv),
    aug1 X.Roooovvvv_anti (ein1 L.ijklabcd L.jlkiabcd Q.Roooovvvv),
    aug1 X.Roooovvvv_anti (ein1 L.ijklabcd L.jlkiabdc Q.Roooovvvv),
    aug1 X.Roooovvvv_anti (ein1 L.ijklabcd L.jlkiacbd Q.Roooovvvv),
    aug1 X.Roooovvvv_anti (ein1 L.ijklabcd L.jlkiacdb Q.Roooovvvv),
    aug1 X.Roooovvvv_anti (ein1 L.ijklabcd L.jlkiadcb Q.Roooovvvv),
    aug1 X.Roooovvvv_anti (ein1 L.ijklabcd L.jlkiadbc Q.Roooovvvv),
    aug1 X.Roooovvvv_anti (ein1 L.ijklabcd L.jlkibacd Q.Roooovvvv),
    aug1 X.Roooovvvv_anti (ein1 L.ijklabcd L.jlkibadc Q.Roooovvvv),
    aug1 X.Roooovvvv_anti (ein1 L.ijklabcd L.jlkibcad Q.Roooovvvv),
    aug1 X.Roooovvvv_anti (ein1 L.ijklabcd L.jlkibcda Q.Roooovvvv),
    aug1 X.Roooovvvv_anti (ein1 L.ijklabcd L.jlkibdca Q.Roooovvvv),
    aug1 X.Roooovvvv_anti (ein1 L.ijklabcd L.jlkibdac Q.Roooovvvv),
    aug1 X.Roooovvvv_anti (ein1 L.ijklabcd L.jlkicbad Q.Roooovvvv),
    aug1 X.Roooovvvv_anti (ein1 L.ijklabcd L.jlkicbda Q.Roooovvvv),
    aug1 X.Roooovvvv_anti (ein1 L.ijklabcd L.jlkicabd Q.Roooovvvv),
    aug1 X.Roooovvvv_anti (ein1 L.ijklabcd L.jlkicadb Q.Roooovvvv),
    aug1 X.Roooovvvv_anti (ein1 L.ijklabcd L.jlkicdab Q.Roooovvvv),
    aug1 X.Roooovvvv_anti (ein1 L.ijklabcd L.jlkicdba Q.Roooovvvv),
    aug1 X.Roooovvvv_anti (ein1 L.ijklabcd L.jlkidbca Q.Roooovvvv),
    aug1 X.Roooovvvv_anti (ein1 L.ijklabcd L.jlkidbac Q.Roooovvvv),
    aug1 X.Roooovvvv_anti (ein1 L.ijklabcd L.jlkidcba Q.Roooovvvv),
    aug1 X.Roooovvvv_anti (ein1 L.ijklabcd L.jlkidcab Q.Roooovvvv),
    aug1 X.Roooovvvv_anti (ein1 L.ijklabcd L.jlkidacb Q.Roooovvvv),
    aug1 X.Roooovvvv_anti (ein1 L.ijklabcd L.jlkidabc Q.Roooovvvv),
    aug1 X.Roooovvvv_anti (ein1 L.ijklabcd L.jlikabcd Q.Roooovvvv),
    aug1 X.Roooovvvv_anti (ein1 L.ijklabcd L.jlikabdc Q.Roooovvvv),
    aug1 X.Roooovvvv_anti (ein1 L.ijklabcd L.jlikacbd Q.Roooovvvv),
    aug1 X.Roooovvvv_anti (ein1 L.ijklabcd L.jlikacdb Q.Roooovvvv),
    aug1 X.Roooovvvv_anti (ein1 L.ijklabcd L.jlikadcb Q.Roooovvvv),
    aug1 X.Roooovvvv_anti (ein1 L.ijklabcd L.jlikadbc Q.Roooovvvv),
    aug1 X.Roooovvvv_anti (ein1 L.ijklabcd L.jlikbacd Q.Roooovvvv),
    aug1 X.Roooovvvv_anti (ein1 L.ijklabcd L.jlikbadc Q.Roooovvvv),
    aug1 X.Roooovvvv_anti (ein1 L.ijklabcd L.jlikbcad Q.Roooovvvv),
    aug1 X.Roooovvvv_anti (ein1 L.ijklabcd L.jlikbcda Q.Roooovvvv),
    aug1 X.Roooovvvv_anti (ein1 L.ijklabcd L.jlikbdca Q.Roooovvvv),
    aug1 X.Roooovvvv_anti (ein1 L.ijklabcd L.jlikbdac Q.Roooovvvv),
    aug1 X.Roooovvvv_anti (ein1 L.ijklabcd L.jlikcbad Q.Roooovvvv),
    aug1 X.Roooovvvv_anti (ein1 L.ijklabcd L.jlikcbda Q.Roooovvvv),
    aug1 X.Roooovvvv_anti (ein1 L.ijklabcd L.jlikcabd Q.Roooovvvv),
    aug1 X.Roooovvvv_anti (ein1 L.ijklabcd L.jlikcadb Q.Roooovvvv),
    aug1 X.Roooovvvv_anti (ein1 L.ijklabcd L.jlikcdab Q.Roooovvvv),
    aug1 X.Roooovvvv_anti (ein1 L.ijklabcd L.jlikcdba Q.Roooovvvv),
    aug1 X.Roooovvvv_anti (ein1 L.ijklabcd L.jlikdbca Q.Roooovvvv),
    aug1 X.Roooovvvv_anti (ein1 L.ijklabcd L.jlikdbac Q.Roooovvvv),
    aug1 X.Roooovvvv_anti (ein1 L.ijklabcd L.jlikdcba Q.Roooovvvv),
    aug1 X.Roooovvvv_anti (ein1 L.ijklabcd L.jlikdcab Q.Roooovvvv),
    aug1 X.Roooovvvv_anti (ein1 L.ijklabcd L.jlikdacb Q.Roooovvvv),
    aug1 X.Roooovvvv_anti (ein1 L.ijklabcd L.jlikdabc Q.Roooovvvv),
    aug1 X.Roooovvvv_anti (ein1 L.ijklabcd L.kjilabcd Q.Roooovvvv),
    aug1 X.Roooovvvv_anti (ein1 L.ijklabcd L.kjilabdc Q.Roooovvvv),
    aug1 X.Roooovvvv_anti (ein1 L.ijklabcd L.kjilacbd Q.Roooovvvv),
    aug1 X.Roooovvvv_anti (ein1 L.ijklabcd L.kjilacdb Q.Roooovvvv),
    aug1 X.Roooovvvv_anti (ein1 L.ijklabcd L.kjiladcb Q.Roooovvvv),
    aug1 X.Roooovvvv_anti (ein1 L.ijklabcd L.kjiladbc Q.Roooovvvv),
    aug1 X.Roooovvvv_anti (ein1 L.ijklabcd L.kjilbacd Q.Roooovvvv),
    aug1 X.Roooovvvv_anti (ein1 L.ijklabcd L.kjilbadc Q.Roooovvvv),
    aug1 X.Roooovvvv_anti (ein1 L.ijklabcd L.kjilbcad Q.Roooovvvv),
    aug1 X.Roooovvvv_anti (ein1 L.ijklabcd L.kjilbcda Q.Roooovvvv),
    aug1 X.Roooovvvv_anti (ein1 L.ijklabcd L.kjilbdca Q.Roooovvvv),
    aug1 X.Roooovvvv_anti (ein1 L.ijklabcd L.kjilbdac Q.Roooovvvv),
    aug1 X.Roooovvvv_anti (ein1 L.ijklabcd L.kjilcbad Q.Roooovvvv),
    aug1 X.Roooovvvv_anti (ein1 L.ijklabcd L.kjilcbda Q.Roooovvvv),
    aug1 X.Roooovvvv_anti (ein1 L.ijklabcd L.kjilcabd Q.Roooovvvv),
    aug1 X.Roooovvvv_anti (ein1 L.ijklabcd L.kjilcadb Q.Roooovvvv),
    aug1 X.Roooovvvv_anti (ein1 L.ijklabcd L.kjilcdab Q.Roooovvvv),
    aug1 X.Roooovvvv_anti (ein1 L.ijklabcd L.kjilcdba Q.Roooovvvv),
    aug1 X.Roooovvvv_anti (ein1 L.ijklabcd L.kjildbca Q.Roooovvvv),
    aug1 X.Roooovvvv_anti (ein1 L.ijklabcd L.kjildbac Q.Roooovvvv),
    aug1 X.Roooovvvv_anti (ein1 L.ijklabcd L.kjildcba Q.Roooovvvv),
    aug1 X.Roooovvvv_anti (ein1 L.ijklabcd L.kjildcab Q.Roooovvvv),
    aug1 X.Roooovvvv_anti (ein1 L.ijklabcd L.kjildacb Q.Roooovvvv),
    aug1 X.Roooovvvv_anti (ein1 L.ijklabcd L.kjildabc Q.Roooovvvv),
    aug1 X.Roooovvvv_anti (ein1 L.ijklabcd L.kjliabcd Q.Roooovvvv),
    aug1 X.Roooovvvv_anti (ein1 L.ijklabcd L.kjliabdc Q.Roooovvvv),
    aug1 X.Roooovvvv_anti (ein1 L.ijklabcd L.kjliacbd Q.Roooovvvv),
    aug1 X.Roooovvvv_anti (ein1 L.ijklabcd L.kjliacdb Q.Roooovvvv),
    aug1 X.Roooovvvv_anti (ein1 L.ijklabcd L.kjliadcb Q.Roooovvvv),
    aug1 X.Roooovvvv_anti (ein1 L.ijklabcd L.kjliadbc Q.Roooovvvv),
    aug1 X.Roooovvvv_anti (ein1 L.ijklabcd L.kjlibacd Q.Roooovvvv),
    aug1 X.Roooovvvv_anti (ein1 L.ijklabcd L.kjlibadc Q.Roooovvvv),
    aug1 X.Roooovvvv_anti (ein1 L.ijklabcd L.kjlibcad Q.Roooovvvv),
    aug1 X.Roooovvvv_anti (ein1 L.ijklabcd L.kjlibcda Q.Roooovvvv),
    aug1 X.Roooovvvv_anti (ein1 L.ijklabcd L.kjlibdca Q.Roooovvvv),
    aug1 X.Roooovvvv_anti (ein1 L.ijklabcd L.kjlibdac Q.Roooovvvv),
    aug1 X.Roooovvvv_anti (ein1 L.ijklabcd L.kjlicbad Q.Roooovvvv),
    aug1 X.Roooovvvv_anti (ein1 L.ijklabcd L.kjlicbda Q.Roooovvvv),
    aug1 X.Roooovvvv_anti (ein1 L.ijklabcd L.kjlicabd Q.Roooovvvv),
    aug1 X.Roooovvvv_anti (ein1 L.ijklabcd L.kjlicadb Q.Roooovvvv),
    aug1 X.Roooovvvv_anti (ein1 L.ijklabcd L.kjlicdab Q.Roooovvvv),
    aug1 X.Roooovvvv_anti (ein1 L.ijklabcd L.kjlicdba Q.Roooovvvv),
    aug1 X.Roooovvvv_anti (ein1 L.ijklabcd L.kjlidbca Q.Roooovvvv),
    aug1 X.Roooovvvv_anti (ein1 L.ijklabcd L.kjlidbac Q.Roooovvvv),
    aug1 X.Roooovvvv_anti (ein1 L.ijklabcd L.kjlidcba Q.Roooovvvv),
    aug1 X.Roooovvvv_anti (ein1 L.ijklabcd L.kjlidcab Q.Roooovvvv),
    aug1 X.Roooovvvv_anti (ein1 L.ijklabcd L.kjlidacb Q.Roooovvvv),
    aug1 X.Roooovvvv_anti (ein1 L.ijklabcd L.kjlidabc Q.Roooovvvv),
    aug1 X.Roooovvvv_anti (ein1 L.ijklabcd L.kijlabcd Q.Roooovvvv),
    aug1 X.Roooovvvv_anti (ein1 L.ijklabcd L.kijlabdc Q.Roooovvvv),
    aug1 X.Roooovvvv_anti (ein1 L.ijklabcd L.kijlacbd Q.Roooovvvv),
    aug1 X.Roooovvvv_anti (ein1 L.ijklabcd L.kijlacdb Q.Roooovvvv),
    aug1 X.Roooovvvv_anti (ein1 L.ijklabcd L.kijladcb Q.Roooovvvv),
    aug1 X.Roooovvvv_anti (ein1 L.ijklabcd L.kijladbc Q.Roooovvvv),
    aug1 X.Roooovvvv_anti (ein1 L.ijklabcd L.kijlbacd Q.Roooovvvv),
    aug1 X.Roooovvvv_anti (ein1 L.ijklabcd L.kijlbadc Q.Roooovvvv),
    aug1 X.Roooovvvv_anti (ein1 L.ijklabcd L.kijlbcad Q.Roooovvvv),
    aug1 X.Roooovvvv_anti (ein1 L.ijklabcd L.kijlbcda Q.Roooovvvv),
    aug1 X.Roooovvvv_anti (ein1 L.ijklabcd L.kijlbdca Q.Roooovvvv),
    aug1 X.Roooovvvv_anti (ein1 L.ijklabcd L.kijlbdac Q.Roooovvvv),
    aug1 X.Roooovvvv_anti (ein1 L.ijklabcd L.kijlcbad Q.Roooovvvv),
    aug1 X.Roooovvvv_anti (ein1 L.ijklabcd L.kijlcbda Q.Roooovvvv),
    aug1 X.Roooovvvv_anti (ein1 L.ijklabcd L.kijlcabd Q.Roooovvvv),
    aug1 X.Roooovvvv_anti (ein1 L.ijklabcd L.kijlcadb Q.Roooovvvv),
    aug1 X.Roooovvvv_anti (ein1 L.ijklabcd L.kijlcdab Q.Roooovvvv),
    aug1 X.Roooovvvv_anti (ein1 L.ijklabcd L.kijlcdba Q.Roooovvvv),
    aug1 X.Roooovvvv_anti (ein1 L.ijklabcd L.kijldbca Q.Roooovvvv),
    aug1 X.Roooovvvv_anti (ein1 L.ijklabcd L.kijldbac Q.Roooovvvv),
    aug1 X.Roooovvvv_anti (ein1 L.ijklabcd L.kijldcba Q.Roooovvvv),
    aug1 X.Roooovvvv_anti (ein1 L.ijklabcd L.kijldcab Q.Roooovvvv),
    aug1 X.Roooovvvv_anti (ein1 L.ijklabcd L.kijldacb Q.Roooovvvv),
    aug1 X.Roooovvvv_anti (ein1 L.ijklabcd L.kijldabc Q.Roooovvvv),
    aug1 X.Roooovvvv_anti (ein1 L.ijklabcd L.kiljabcd Q.Roooovvvv),
    aug1 X.Roooovvvv_anti (ein1 L.ijklabcd L.kiljabdc Q.Roooovvvv),
    aug1 X.Roooovvvv_anti (ein1 L.ijklabcd L.kiljacbd Q.Roooovvvv),
    aug1 X.Roooovvvv_anti (ein1 L.ijklabcd L.kiljacdb Q.Roooovvvv),
    aug1 X.Roooovvvv_anti (ein1 L.ijklabcd L.kiljadcb Q.Roooovvvv),
    aug1 X.Roooovvvv_anti (ein1 L.ijklabcd L.kiljadbc Q.Roooovvvv),
    aug1 X.Roooovvvv_anti (ein1 L.ijklabcd L.kiljbacd Q.Roooovvvv),
    aug1 X.Roooovvvv_anti (ein1 L.ijklabcd L.kiljbadc Q.Roooovvvv),
    aug1 X.Roooovvvv_anti (ein1 L.ijklabcd L.kiljbcad Q.Roooovvvv),
    aug1 X.Roooovvvv_anti (ein1 L.ijklabcd L.kiljbcda Q.Roooovvvv),
    aug1 X.Roooovvvv_anti (ein1 L.ijklabcd L.kiljbdca Q.Roooovvvv),
    aug1 X.Roooovvvv_anti (ein1 L.ijklabcd L.kiljbdac Q.Roooovvvv),
    aug1 X.Roooovvvv_anti (ein1 L.ijklabcd L.kiljcbad Q.Roooovvvv),
    aug1 X.Roooovvvv_anti (ein1 L.ijklabcd L.kiljcbda Q.Roooovvvv),
    aug1 X.Roooovvvv_anti (ein1 L.ijklabcd L.kiljcabd Q.Roooovvvv),
    aug1 X.Roooovvvv_anti (ein1 L.ijklabcd L.kiljcadb Q.Roooovvvv),
    aug1 X.Roooovvvv_anti (ein1 L.ijklabcd L.kiljcdab Q.Roooovvvv),
    aug1 X.Roooovvvv_anti (ein1 L.ijklabcd L.kiljcdba Q.Roooovvvv),
    aug1 X.Roooovvvv_anti (ein1 L.ijklabcd L.kiljdbca Q.Roooovvvv),
    aug1 X.Roooovvvv_anti (ein1 L.ijklabcd L.kiljdbac Q.Roooovvvv),
    aug1 X.Roooovvvv_anti (ein1 L.ijklabcd L.kiljdcba Q.Roooovvvv),
    aug1 X.Roooovvvv_anti (ein1 L.ijklabcd L.kiljdcab Q.Roooovvvv),
    aug1 X.Roooovvvv_anti (ein1 L.ijklabcd L.kiljdacb Q.Roooovvvv),
    aug1 X.Roooovvvv_anti (ein1 L.ijklabcd L.kiljdabc Q.Roooovvvv),
    aug1 X.Roooovvvv_anti (ein1 L.ijklabcd L.klijabcd Q.Roooovvvv),
    aug1 X.Roooovvvv_anti (ein1 L.ijklabcd L.klijabdc Q.Roooovvvv),
    aug1 X.Roooovvvv_anti (ein1 L.ijklabcd L.klijacbd Q.Roooovvvv),
    aug1 X.Roooovvvv_anti (ein1 L.ijklabcd L.klijacdb Q.Roooovvvv),
    aug1 X.Roooovvvv_anti (ein1 L.ijklabcd L.klijadcb Q.Roooovvvv),
    aug1 X.Roooovvvv_anti (ein1 L.ijklabcd L.klijadbc Q.Roooovvvv),
    aug1 X.Roooovvvv_anti (ein1 L.ijklabcd L.klijbacd Q.Roooovvvv),
    aug1 X.Roooovvvv_anti (ein1 L.ijklabcd L.klijbadc Q.Roooovvvv),
    aug1 X.Roooovvvv_anti (ein1 L.ijklabcd L.klijbcad Q.Roooovvvv),
    aug1 X.Roooovvvv_anti (ein1 L.ijklabcd L.klijbcda Q.Roooovvvv),
    aug1 X.Roooovvvv_anti (ein1 L.ijklabcd L.klijbdca Q.Roooovvvv),
    aug1 X.Roooovvvv_anti (ein1 L.ijklabcd L.klijbdac Q.Roooovvvv),
    aug1 X.Roooovvvv_anti (ein1 L.ijklabcd L.klijcbad Q.Roooovvvv),
    aug1 X.Roooovvvv_anti (ein1 L.ijklabcd L.klijcbda Q.Roooovvvv),
    aug1 X.Roooovvvv_anti (ein1 L.ijklabcd L.klijcabd Q.Roooovvvv),
    aug1 X.Roooovvvv_anti (ein1 L.ijklabcd L.klijcadb Q.Roooovvvv),
    aug1 X.Roooovvvv_anti (ein1 L.ijklabcd L.klijcdab Q.Roooovvvv),
    aug1 X.Roooovvvv_anti (ein1 L.ijklabcd L.klijcdba Q.Roooovvvv),
    aug1 X.Roooovvvv_anti (ein1 L.ijklabcd L.klijdbca Q.Roooovvvv),
    aug1 X.Roooovvvv_anti (ein1 L.ijklabcd L.klijdbac Q.Roooovvvv),
    aug1 X.Roooovvvv_anti (ein1 L.ijklabcd L.klijdcba Q.Roooovvvv),
    aug1 X.Roooovvvv_anti (ein1 L.ijklabcd L.klijdcab Q.Roooovvvv),
    aug1 X.Roooovvvv_anti (ein1 L.ijklabcd L.klijdacb Q.Roooovvvv),
    aug1 X.Roooovvvv_anti (ein1 L.ijklabcd L.klijdabc Q.Roooovvvv),
    aug1 X.Roooovvvv_anti (ein1 L.ijklabcd L.kljiabcd Q.Roooovvvv),
    aug1 X.Roooovvvv_anti (ein1 L.ijklabcd L.kljiabdc Q.Roooovvvv),
    aug1 X.Roooovvvv_anti (ein1 L.ijklabcd L.kljiacbd Q.Roooovvvv),
    aug1 X.Roooovvvv_anti (ein1 L.ijklabcd L.kljiacdb Q.Roooovvvv),
    aug1 X.Roooovvvv_anti (ein1 L.ijklabcd L.kljiadcb Q.Roooovvvv),
    aug1 X.Roooovvvv_anti (ein1 L.ijklabcd L.kljiadbc Q.Roooovvvv),
    aug1 X.Roooovvvv_anti (ein1 L.ijklabcd L.kljibacd Q.Roooovvvv),
    aug1 X.Roooovvvv_anti (ein1 L.ijklabcd L.kljibadc Q.Roooovvvv),
    aug1 X.Roooovvvv_anti (ein1 L.ijklabcd L.kljibcad Q.Roooovvvv),
    aug1 X.Roooovvvv_anti (ein1 L.ijklabcd L.kljibcda Q.Roooovvvv),
    aug1 X.Roooovvvv_anti (ein1 L.ijklabcd L.kljibdca Q.Roooovvvv),
    aug1 X.Roooovvvv_anti (ein1 L.ijklabcd L.kljibdac Q.Roooovvvv),
    aug1 X.Roooovvvv_anti (ein1 L.ijklabcd L.kljicbad Q.Roooovvvv),
    aug1 X.Roooovvvv_anti (ein1 L.ijklabcd L.kljicbda Q.Roooovvvv),
    aug1 X.Roooovvvv_anti (ein1 L.ijklabcd L.kljicabd Q.Roooovvvv),
    aug1 X.Roooovvvv_anti (ein1 L.ijklabcd L.kljicadb Q.Roooovvvv),
    aug1 X.Roooovvvv_anti (ein1 L.ijklabcd L.kljicdab Q.Roooovvvv),
    aug1 X.Roooovvvv_anti (ein1 L.ijklabcd L.kljicdba Q.Roooovvvv),
    aug1 X.Roooovvvv_anti (ein1 L.ijklabcd L.kljidbca Q.Roooovvvv),
    aug1 X.Roooovvvv_anti (ein1 L.ijklabcd L.kljidbac Q.Roooovvvv),
    aug1 X.Roooovvvv_anti (ein1 L.ijklabcd L.kljidcba Q.Roooovvvv),
    aug1 X.Roooovvvv_anti (ein1 L.ijklabcd L.kljidcab Q.Roooovvvv),
    aug1 X.Roooovvvv_anti (ein1 L.ijklabcd L.kljidacb Q.Roooovvvv),
    aug1 X.Roooovvvv_anti (ein1 L.ijklabcd L.kljidabc Q.Roooovvvv),
    aug1 X.Roooovvvv_anti (ein1 L.ijklabcd L.ljkiabcd Q.Roooovvvv),
    aug1 X.Roooovvvv_anti (ein1 L.ijklabcd L.ljkiabdc Q.Roooovvvv),
    aug1 X.Roooovvvv_anti (ein1 L.ijklabcd L.ljkiacbd Q.Roooovvvv),
    aug1 X.Roooovvvv_anti (ein1 L.ijklabcd L.ljkiacdb Q.Roooovvvv),
    aug1 X.Roooovvvv_anti (ein1 L.ijklabcd L.ljkiadcb Q.Roooovvvv),
    aug1 X.Roooovvvv_anti (ein1 L.ijklabcd L.ljkiadbc Q.Roooovvvv),
    aug1 X.Roooovvvv_anti (ein1 L.ijklabcd L.ljkibacd Q.Roooovvvv),
    aug1 X.Roooovvvv_anti (ein1 L.ijklabcd L.ljkibadc Q.Roooovvvv),
    aug1 X.Roooovvvv_anti (ein1 L.ijklabcd L.ljkibcad Q.Roooovvvv),
    aug1 X.Roooovvvv_anti (ein1 L.ijklabcd L.ljkibcda Q.Roooovvvv),
    aug1 X.Roooovvvv_anti (ein1 L.ijklabcd L.ljkibdca Q.Roooovvvv),
    aug1 X.Roooovvvv_anti (ein1 L.ijklabcd L.ljkibdac Q.Roooovvvv),
    aug1 X.Roooovvvv_anti (ein1 L.ijklabcd L.ljkicbad Q.Roooovvvv),
    aug1 X.Roooovvvv_anti (ein1 L.ijklabcd L.ljkicbda Q.Roooovvvv),
    aug1 X.Roooovvvv_anti (ein1 L.ijklabcd L.ljkicabd Q.Roooovvvv),
    aug1 X.Roooovvvv_anti (ein1 L.ijklabcd L.ljkicadb Q.Roooovvvv),
    aug1 X.Roooovvvv_anti (ein1 L.ijklabcd L.ljkicdab Q.Roooovvvv),
    aug1 X.Roooovvvv_anti (ein1 L.ijklabcd L.ljkicdba Q.Roooovvvv),
    aug1 X.Roooovvvv_anti (ein1 L.ijklabcd L.ljkidbca Q.Roooovvvv),
    aug1 X.Roooovvvv_anti (ein1 L.ijklabcd L.ljkidbac Q.Roooovvvv),
    aug1 X.Roooovvvv_anti (ein1 L.ijklabcd L.ljkidcba Q.Roooovvvv),
    aug1 X.Roooovvvv_anti (ein1 L.ijklabcd L.ljkidcab Q.Roooovvvv),
    aug1 X.Roooovvvv_anti (ein1 L.ijklabcd L.ljkidacb Q.Roooovvvv),
    aug1 X.Roooovvvv_anti (ein1 L.ijklabcd L.ljkidabc Q.Roooovvvv),
    aug1 X.Roooovvvv_anti (ein1 L.ijklabcd L.ljikabcd Q.Roooovvvv),
    aug1 X.Roooovvvv_anti (ein1 L.ijklabcd L.ljikabdc Q.Roooovvvv),
    aug1 X.Roooovvvv_anti (ein1 L.ijklabcd L.ljikacbd Q.Roooovvvv),
    aug1 X.Roooovvvv_anti (ein1 L.ijklabcd L.ljikacdb Q.Roooovvvv),
    aug1 X.Roooovvvv_anti (ein1 L.ijklabcd L.ljikadcb Q.Roooovvvv),
    aug1 X.Roooovvvv_anti (ein1 L.ijklabcd L.ljikadbc Q.Roooovvvv),
    aug1 X.Roooovvvv_anti (ein1 L.ijklabcd L.ljikbacd Q.Roooovvvv),
    aug1 X.Roooovvvv_anti (ein1 L.ijklabcd L.ljikbadc Q.Roooovvvv),
    aug1 X.Roooovvvv_anti (ein1 L.ijklabcd L.ljikbcad Q.Roooovvvv),
    aug1 X.Roooovvvv_anti (ein1 L.ijklabcd L.ljikbcda Q.Roooovvvv),
    aug1 X.Roooovvvv_anti (ein1 L.ijklabcd L.ljikbdca Q.Roooovvvv),
    aug1 X.Roooovvvv_anti (ein1 L.ijklabcd L.ljikbdac Q.Roooovvvv),
    aug1 X.Roooovvvv_anti (ein1 L.ijklabcd L.ljikcbad Q.Roooovvvv),
    aug1 X.Roooovvvv_anti (ein1 L.ijklabcd L.ljikcbda Q.Roooovvvv),
    aug1 X.Roooovvvv_anti (ein1 L.ijklabcd L.ljikcabd Q.Roooovvvv),
    aug1 X.Roooovvvv_anti (ein1 L.ijklabcd L.ljikcadb Q.Roooovvvv),
    aug1 X.Roooovvvv_anti (ein1 L.ijklabcd L.ljikcdab Q.Roooovvvv),
    aug1 X.Roooovvvv_anti (ein1 L.ijklabcd L.ljikcdba Q.Roooovvvv),
    aug1 X.Roooovvvv_anti (ein1 L.ijklabcd L.ljikdbca Q.Roooovvvv),
    aug1 X.Roooovvvv_anti (ein1 L.ijklabcd L.ljikdbac Q.Roooovvvv),
    aug1 X.Roooovvvv_anti (ein1 L.ijklabcd L.ljikdcba Q.Roooovvvv),
    aug1 X.Roooovvvv_anti (ein1 L.ijklabcd L.ljikdcab Q.Roooovvvv),
    aug1 X.Roooovvvv_anti (ein1 L.ijklabcd L.ljikdacb Q.Roooovvvv),
    aug1 X.Roooovvvv_anti (ein1 L.ijklabcd L.ljikdabc Q.Roooovvvv),
    aug1 X.Roooovvvv_anti (ein1 L.ijklabcd L.lkjiabcd Q.Roooovvvv),
    aug1 X.Roooovvvv_anti (ein1 L.ijklabcd L.lkjiabdc Q.Roooovvvv),
    aug1 X.Roooovvvv_anti (ein1 L.ijklabcd L.lkjiacbd Q.Roooovvvv),
    aug1 X.Roooovvvv_anti (ein1 L.ijklabcd L.lkjiacdb Q.Roooovvvv),
    aug1 X.Roooovvvv_anti (ein1 L.ijklabcd L.lkjiadcb Q.Roooovvvv),
    aug1 X.Roooovvvv_anti (ein1 L.ijklabcd L.lkjiadbc Q.Roooovvvv),
    aug1 X.Roooovvvv_anti (ein1 L.ijklabcd L.lkjibacd Q.Roooovvvv),
    aug1 X.Roooovvvv_anti (ein1 L.ijklabcd L.lkjibadc Q.Roooovvvv),
    aug1 X.Roooovvvv_anti (ein1 L.ijklabcd L.lkjibcad Q.Roooovvvv),
    aug1 X.Roooovvvv_anti (ein1 L.ijklabcd L.lkjibcda Q.Roooovvvv),
    aug1 X.Roooovvvv_anti (ein1 L.ijklabcd L.lkjibdca Q.Roooovvvv),
    aug1 X.Roooovvvv_anti (ein1 L.ijklabcd L.lkjibdac Q.Roooovvvv),
    aug1 X.Roooovvvv_anti (ein1 L.ijklabcd L.lkjicbad Q.Roooovvvv),
    aug1 X.Roooovvvv_anti (ein1 L.ijklabcd L.lkjicbda Q.Roooovvvv),
    aug1 X.Roooovvvv_anti (ein1 L.ijklabcd L.lkjicabd Q.Roooovvvv),
    aug1 X.Roooovvvv_anti (ein1 L.ijklabcd L.lkjicadb Q.Roooovvvv),
    aug1 X.Roooovvvv_anti (ein1 L.ijklabcd L.lkjicdab Q.Roooovvvv),
    aug1 X.Roooovvvv_anti (ein1 L.ijklabcd L.lkjicdba Q.Roooovvvv),
    aug1 X.Roooovvvv_anti (ein1 L.ijklabcd L.lkjidbca Q.Roooovvvv),
    aug1 X.Roooovvvv_anti (ein1 L.ijklabcd L.lkjidbac Q.Roooovvvv),
    aug1 X.Roooovvvv_anti (ein1 L.ijklabcd L.lkjidcba Q.Roooovvvv),
    aug1 X.Roooovvvv_anti (ein1 L.ijklabcd L.lkjidcab Q.Roooovvvv),
    aug1 X.Roooovvvv_anti (ein1 L.ijklabcd L.lkjidacb Q.Roooovvvv),
    aug1 X.Roooovvvv_anti (ein1 L.ijklabcd L.lkjidabc Q.Roooovvvv),
    aug1 X.Roooovvvv_anti (ein1 L.ijklabcd L.lkijabcd Q.Roooovvvv),
    aug1 X.Roooovvvv_anti (ein1 L.ijklabcd L.lkijabdc Q.Roooovvvv),
    aug1 X.Roooovvvv_anti (ein1 L.ijklabcd L.lkijacbd Q.Roooovvvv),
    aug1 X.Roooovvvv_anti (ein1 L.ijklabcd L.lkijacdb Q.Roooovvvv),
    aug1 X.Roooovvvv_anti (ein1 L.ijklabcd L.lkijadcb Q.Roooovvvv),
    aug1 X.Roooovvvv_anti (ein1 L.ijklabcd L.lkijadbc Q.Roooovvvv),
    aug1 X.Roooovvvv_anti (ein1 L.ijklabcd L.lkijbacd Q.Roooovvvv),
    aug1 X.Roooovvvv_anti (ein1 L.ijklabcd L.lkijbadc Q.Roooovvvv),
    aug1 X.Roooovvvv_anti (ein1 L.ijklabcd L.lkijbcad Q.Roooovvvv),
    aug1 X.Roooovvvv_anti (ein1 L.ijklabcd L.lkijbcda Q.Roooovvvv),
    aug1 X.Roooovvvv_anti (ein1 L.ijklabcd L.lkijbdca Q.Roooovvvv),
    aug1 X.Roooovvvv_anti (ein1 L.ijklabcd L.lkijbdac Q.Roooovvvv),
    aug1 X.Roooovvvv_anti (ein1 L.ijklabcd L.lkijcbad Q.Roooovvvv),
    aug1 X.Roooovvvv_anti (ein1 L.ijklabcd L.lkijcbda Q.Roooovvvv),
    aug1 X.Roooovvvv_anti (ein1 L.ijklabcd L.lkijcabd Q.Roooovvvv),
    aug1 X.Roooovvvv_anti (ein1 L.ijklabcd L.lkijcadb Q.Roooovvvv),
    aug1 X.Roooovvvv_anti (ein1 L.ijklabcd L.lkijcdab Q.Roooovvvv),
    aug1 X.Roooovvvv_anti (ein1 L.ijklabcd L.lkijcdba Q.Roooovvvv),
    aug1 X.Roooovvvv_anti (ein1 L.ijklabcd L.lkijdbca Q.Roooovvvv),
    aug1 X.Roooovvvv_anti (ein1 L.ijklabcd L.lkijdbac Q.Roooovvvv),
    aug1 X.Roooovvvv_anti (ein1 L.ijklabcd L.lkijdcba Q.Roooovvvv),
    aug1 X.Roooovvvv_anti (ein1 L.ijklabcd L.lkijdcab Q.Roooovvvv),
    aug1 X.Roooovvvv_anti (ein1 L.ijklabcd L.lkijdacb Q.Roooovvvv),
    aug1 X.Roooovvvv_anti (ein1 L.ijklabcd L.lkijdabc Q.Roooovvvv),
    aug1 X.Roooovvvv_anti (ein1 L.ijklabcd L.likjabcd Q.Roooovvvv),
    aug1 X.Roooovvvv_anti (ein1 L.ijklabcd L.likjabdc Q.Roooovvvv),
    aug1 X.Roooovvvv_anti (ein1 L.ijklabcd L.likjacbd Q.Roooovvvv),
    aug1 X.Roooovvvv_anti (ein1 L.ijklabcd L.likjacdb Q.Roooovvvv),
    aug1 X.Roooovvvv_anti (ein1 L.ijklabcd L.likjadcb Q.Roooovvvv),
    aug1 X.Roooovvvv_anti (ein1 L.ijklabcd L.likjadbc Q.Roooovvvv),
    aug1 X.Roooovvvv_anti (ein1 L.ijklabcd L.likjbacd Q.Roooovvvv),
    aug1 X.Roooovvvv_anti (ein1 L.ijklabcd L.likjbadc Q.Roooovvvv),
    aug1 X.Roooovvvv_anti (ein1 L.ijklabcd L.likjbcad Q.Roooovvvv),
    aug1 X.Roooovvvv_anti (ein1 L.ijklabcd L.likjbcda Q.Roooovvvv),
    aug1 X.Roooovvvv_anti (ein1 L.ijklabcd L.likjbdca Q.Roooovvvv),
    aug1 X.Roooovvvv_anti (ein1 L.ijklabcd L.likjbdac Q.Roooovvvv),
    aug1 X.Roooovvvv_anti (ein1 L.ijklabcd L.likjcbad Q.Roooovvvv),
    aug1 X.Roooovvvv_anti (ein1 L.ijklabcd L.likjcbda Q.Roooovvvv),
    aug1 X.Roooovvvv_anti (ein1 L.ijklabcd L.likjcabd Q.Roooovvvv),
    aug1 X.Roooovvvv_anti (ein1 L.ijklabcd L.likjcadb Q.Roooovvvv),
    aug1 X.Roooovvvv_anti (ein1 L.ijklabcd L.likjcdab Q.Roooovvvv),
    aug1 X.Roooovvvv_anti (ein1 L.ijklabcd L.likjcdba Q.Roooovvvv),
    aug1 X.Roooovvvv_anti (ein1 L.ijklabcd L.likjdbca Q.Roooovvvv),
    aug1 X.Roooovvvv_anti (ein1 L.ijklabcd L.likjdbac Q.Roooovvvv),
    aug1 X.Roooovvvv_anti (ein1 L.ijklabcd L.likjdcba Q.Roooovvvv),
    aug1 X.Roooovvvv_anti (ein1 L.ijklabcd L.likjdcab Q.Roooovvvv),
    aug1 X.Roooovvvv_anti (ein1 L.ijklabcd L.likjdacb Q.Roooovvvv),
    aug1 X.Roooovvvv_anti (ein1 L.ijklabcd L.likjdabc Q.Roooovvvv),
    aug1 X.Roooovvvv_anti (ein1 L.ijklabcd L.lijkabcd Q.Roooovvvv),
    aug1 X.Roooovvvv_anti (ein1 L.ijklabcd L.lijkabdc Q.Roooovvvv),
    aug1 X.Roooovvvv_anti (ein1 L.ijklabcd L.lijkacbd Q.Roooovvvv),
    aug1 X.Roooovvvv_anti (ein1 L.ijklabcd L.lijkacdb Q.Roooovvvv),
    aug1 X.Roooovvvv_anti (ein1 L.ijklabcd L.lijkadcb Q.Roooovvvv),
    aug1 X.Roooovvvv_anti (ein1 L.ijklabcd L.lijkadbc Q.Roooovvvv),
    aug1 X.Roooovvvv_anti (ein1 L.ijklabcd L.lijkbacd Q.Roooovvvv),
    aug1 X.Roooovvvv_anti (ein1 L.ijklabcd L.lijkbadc Q.Roooovvvv),
    aug1 X.Roooovvvv_anti (ein1 L.ijklabcd L.lijkbcad Q.Roooovvvv),
    aug1 X.Roooovvvv_anti (ein1 L.ijklabcd L.lijkbcda Q.Roooovvvv),
    aug1 X.Roooovvvv_anti (ein1 L.ijklabcd L.lijkbdca Q.Roooovvvv),
    aug1 X.Roooovvvv_anti (ein1 L.ijklabcd L.lijkbdac Q.Roooovvvv),
    aug1 X.Roooovvvv_anti (ein1 L.ijklabcd L.lijkcbad Q.Roooovvvv),
    aug1 X.Roooovvvv_anti (ein1 L.ijklabcd L.lijkcbda Q.Roooovvvv),
    aug1 X.Roooovvvv_anti (ein1 L.ijklabcd L.lijkcabd Q.Roooovvvv),
    aug1 X.Roooovvvv_anti (ein1 L.ijklabcd L.lijkcadb Q.Roooovvvv),
    aug1 X.Roooovvvv_anti (ein1 L.ijklabcd L.lijkcdab Q.Roooovvvv),
    aug1 X.Roooovvvv_anti (ein1 L.ijklabcd L.lijkcdba Q.Roooovvvv),
    aug1 X.Roooovvvv_anti (ein1 L.ijklabcd L.lijkdbca Q.Roooovvvv),
    aug1 X.Roooovvvv_anti (ein1 L.ijklabcd L.lijkdbac Q.Roooovvvv),
    aug1 X.Roooovvvv_anti (ein1 L.ijklabcd L.lijkdcba Q.Roooovvvv),
    aug1 X.Roooovvvv_anti (ein1 L.ijklabcd L.lijkdcab Q.Roooovvvv),
    aug1 X.Roooovvvv_anti (ein1 L.ijklabcd L.lijkdacb Q.Roooovvvv),
    aug1 X.Roooovvvv_anti (ein1 L.ijklabcd L.lijkdabc Q.Roooovvvv)]
  ret := [Q.Roooovvvv_anti]

/-- `wicked_T3corr.py` 49-55: `fifthOrder_capC`; 2 einsum calls. -/
def wicked_T3corr_fifthOrder_capC : Fn where
  params := [X.t2_dag, X.g, X.nocc, X.nvirt]
  body := [
    set1 X.rvvvooo (ein3 L.abij L.dekl L.lcde L.abcijk Q.t2_dag Q.t2_dag Q.g_ovvv),
    aug1 X.rvvvooo (ein3 L.abij L.cdlm L.lmkd L.abcijk Q.t2_dag Q.t2_dag Q.g_ooov),
    set1 X.rvvvooo (.arg Q.rvvvooo_t345012),
    set1 X.rvvvooo (.call F.wicked_T3corr_antisym_T3 [Q.rvvvooo, Q.nocc, Q.nvirt]),
    set1 X.rvvvooo (.arg Q.rvvvooo_t345012)]
  ret := [Q.rvvvooo]

/-- `wicked_T3corr.py` 57-65: `fifthOrder_capA`; 4 einsum calls. -/
def wicked_T3corr_fifthOrder_capA : Fn where
  params := [X.t2_dag, X.g, X.nocc, X.nvirt]
  body := [
    set1 X.rvvvooo (ein3 L.adij L.bekl L.lcde L.abcijk Q.t2_dag Q.t2_dag Q.g_ovvv),
    aug1 X.rvvvooo (ein3 L.adij L.bclm L.lmkd L.abcijk Q.t2_dag Q.t2_dag Q.g_ooov),
    aug1 X.rvvvooo (ein3 L.deij L.abkl L.lcde L.abcijk Q.t2_dag Q.t2_dag Q.g_ovvv),
    aug1 X.rvvvooo (ein3 L.abil L.cdjm L.lmkd L.abcijk Q.t2_dag Q.t2_dag Q.g_ooov),
    set1 X.rvvvooo (.arg Q.rvvvooo_t345012),
    set1 X.rvvvooo (.call F.wicked_T3corr_antisym_T3 [Q.rvvvooo, Q.nocc, Q.nvirt]),
    set1 X.rvvvooo (.arg Q.rvvvooo_t345012)]
  ret := [Q.rvvvooo]

/-- `wicked_T3corr.py` 73-74: `contractE`; 1 einsum calls. -/
def wicked_T3corr_contractE : Fn where
  params := [X.t3resid, X.t3_dag]
  body := [
    set1 X.tmp0 (ein2 L.ijkabc L.abcijk [] Q.t3resid Q.t3_dag)]
  ret := [Q.tmp0]

/-- `wicked_T3corr.py` 90-95: `build_T3_thirdO`; 4 einsum calls. -/
def wicked_T3corr_build_T3_thirdO : Fn where
  params := [X.t2, X.g]
  body := [
    set1 X.rooovvv (ein3 L.ilab L.jmcd L.kdlm L.ijkabc Q.t2 Q.t2 Q.g_ovoo),
    aug1 X.rooovvv (ein3 L.ilab L.jkde L.delc L.ijkabc Q.t2 Q.t2 Q.g_vvov),
    aug1 X.rooovvv (ein3 L.lmab L.ijcd L.kdlm L.ijkabc Q.t2 Q.t2 Q.g_ovoo),
    aug1 X.rooovvv (ein3 L.ijad L.klbe L.delc L.ijkabc Q.t2 Q.t2 Q.g_vvov)]
  ret := [Q.rooovvv]

/-- `wicked_T3corr.py` 97-101: `build_netT2`; 2 einsum calls. -/
def wicked_T3corr_build_netT2 : Fn where
  params := [X.t3, X.g]
  body := [
    set1 X.roovv (ein2 L.iklabc L.jckl L.ijab Q.t3 Q.g_ovoo),
    aug1 X.roovv (ein2 L.ijkacd L.cdkb L.ijab Q.t3 Q.g_vvov)]
  ret := [Q.roovv]

/-- `wicked_T3corr.py` 103-107: `build_T3_secondO`; 2 einsum calls. -/
def wicked_T3corr_build_T3_secondO : Fn where
  params := [X.t2, X.g]
  body := [
    set1 X.rooovvv (ein2 L.ilab L.jklc L.ijkabc Q.t2 Q.g_ooov),
    aug1 X.rooovvv (ein2 L.ijad L.kdbc L.ijkabc Q.t2 Q.g_ovvv)]
  ret := [Q.rooovvv]

/-- `wicked_T3corr.py` 109-113: `getE_squareBrackT`; 2 einsum calls. -/
def wicked_T3corr_getE_squareBrackT : Fn where
  params := [X.t3, X.t2_dag, X.g]
  body := [
    set1 X.energy (.num),
    aug1 X.energy (ein3 L.ijkabc L.adij L.bckd [] Q.t3 Q.t2_dag Q.g_vvov),
    aug1 X.energy (ein3 L.ijkabc L.abil L.lcjk [] Q.t3 Q.t2_dag Q.g_ovoo)]
  ret := [Q.energy]

/-- `wicked_T3corr.py` 115-118: `getE_parenT_t1`; 1 einsum calls. -/
def wicked_T3corr_getE_parenT_t1 : Fn where
  params := [X.t3, X.t1_dag, X.g]
  body := [
    set1 X.energy (.num),
    aug1 X.energy (ein3 L.ijkabc L.ai L.bcjk [] Q.t3 Q.t1_dag Q.g_vvoo)]
  ret := [Q.energy]

/-- `wicked_T3corr.py` 122-125: `get_netT1_fromT2`; 2 einsum calls. -/
def wicked_T3corr_get_netT1_fromT2 : Fn where
  params := [X.t2, X.g]
  body := [
    set1 X.rov (ein2 L.jkab L.ibjk L.ia Q.t2 Q.g_ovoo),
    aug1 X.rov (ein2 L.ijbc L.bcja L.ia Q.t2 Q.g_vvov)]
  ret := [Q.rov]

/-- `wicked_T3corr.py` 127-137: `get_netT1_thirdO`; 8 einsum calls. -/
def wicked_T3corr_get_netT1_thirdO : Fn where
  params := [X.t2, X.g]
  body := [
    set1 X.t2dag (.arg Q.t2_t2301),
    set1 X.rov (ein3 L.ijab L.cdjk L.kbcd L.ia Q.t2 Q.t2dag Q.g_ovvv),
    aug1 X.rov (ein3 L.ijab L.bckl L.kljc L.ia Q.t2 Q.t2dag Q.g_ooov),
    aug1 X.rov (ein3 L.jkab L.cdjk L.ibcd L.ia Q.t2 Q.t2dag Q.g_ovvv),
    aug1 X.rov (ein3 L.jkab L.bcjl L.ilkc L.ia Q.t2 Q.t2dag Q.g_ooov),
    aug1 X.rov (ein3 L.ijbc L.bdjk L.kcad L.ia Q.t2 Q.t2dag Q.g_ovvv),
    aug1 X.rov (ein3 L.ijbc L.bckl L.klja L.ia Q.t2 Q.t2dag Q.g_ooov),
    aug1 X.rov (ein3 L.jkbc L.bdjk L.icad L.ia Q.t2 Q.t2dag Q.g_ovvv),
    aug1 X.rov (ein3 L.jkbc L.bcjl L.ilka L.ia Q.t2 Q.t2dag Q.g_ooov)]
  ret := [Q.rov]

/-- `wicked_T3corr.py` 139-142: `get_T2resid_fromT1bar`; 2 einsum calls. -/
def wicked_T3corr_get_T2resid_fromT1bar : Fn where
  params := [X.t1_bar, X.g]
  body := [
    set1 X.roovv (ein2 L.ka L.ijkb L.ijab Q.t1_bar Q.g_ooov),
    aug1 X.roovv (ein2 L.ic L.jcab L.ijab Q.t1_bar Q.g_ovvv)]
  ret := [Q.roovv]

/-- `wicked_T3corr.py` 146-185: `antisym_T3`; 36 einsum calls. -/
def wicked_T3corr_antisym_T3 : Fn where
  params := [X.Rooovvv, X.nocc, X.nvir]
  body := [
    set1 X.Rooovvv_anti (.zeros [X.nocc, X.nocc, X.nocc, X.nvir, X.nvir, X.nvir]),
    aug1 X.Rooovvv_anti (ein1 L.ijkabc L.ijkabc Q.Rooovvv),
    aug1 X.Rooovvv_anti (ein1 L.ijkabc L.ijkacb Q.Rooovvv),
    aug1 X.Rooovvv_anti (ein1 L.ijkabc L.ijkbac Q.Rooovvv),
    aug1 X.Rooovvv_anti (ein1 L.ijkabc L.ijkbca Q.Rooovvv),
    aug1 X.Rooovvv_anti (ein1 L.ijkabc L.ijkcab Q.Rooovvv),
    aug1 X.Rooovvv_anti (ein1 L.ijkabc L.ijkcba Q.Rooovvv),
    aug1 X.Rooovvv_anti (ein1 L.ijkabc L.ikjabc Q.Rooovvv),
    aug1 X.Rooovvv_anti (ein1 L.ijkabc L.ikjacb Q.Rooovvv),
    aug1 X.Rooovvv_anti (ein1 L.ijkabc L.ikjbac Q.Rooovvv),
    aug1 X.Rooovvv_anti (ein1 L.ijkabc L.ikjbca Q.Rooovvv),
    aug1 X.Rooovvv_anti (ein1 L.ijkabc L.ikjcab Q.Rooovvv),
    aug1 X.Rooovvv_anti (ein1 L.ijkabc L.ikjcba Q.Rooovvv),
    aug1 X.Rooovvv_anti (ein1 L.ijkabc L.jikabc Q.Rooovvv),
    aug1 X.Rooovvv_anti (ein1 L.ijkabc L.jikacb Q.Rooovvv),
    aug1 X.Rooovvv_anti (ein1 L.ijkabc L.jikbac Q.Rooovvv),
    aug1 X.Rooovvv_anti (ein1 L.ijkabc L.jikbca Q.Rooovvv),
    aug1 X.Rooovvv_anti (ein1 L.ijkabc L.jikcab Q.Rooovvv),
    aug1 X.Rooovvv_anti (ein1 L.ijkabc L.jikcba Q.Rooovvv),
    aug1 X.Rooovvv_anti (ein1 L.ijkabc L.jkiabc Q.Rooovvv),
    aug1 X.Rooovvv_anti (ein1 L.ijkabc L.jkiacb Q.Rooovvv),
    aug1 X.Rooovvv_anti (ein1 L.ijkabc L.jkibac Q.Rooovvv),
    aug1 X.Rooovvv_anti (ein1 L.ijkabc L.jkibca Q.Rooovvv),
    aug1 X.Rooovvv_anti (ein1 L.ijkabc L.jkicab Q.Rooovvv),
    aug1 X.Rooovvv_anti (ein1 L.ijkabc L.jkicba Q.Rooovvv),
    aug1 X.Rooovvv_anti (ein1 L.ijkabc L.kijabc Q.Rooovvv),
    aug1 X.Rooovvv_anti (ein1 L.ijkabc L.kijacb Q.Rooovvv),
    aug1 X.Rooovvv_anti (ein1 L.ijkabc L.kijbac Q.Rooovvv),
    aug1 X.Rooovvv_anti (ein1 L.ijkabc L.kijbca Q.Rooovvv),
    aug1 X.Rooovvv_anti (ein1 L.ijkabc L.kijcab Q.Rooovvv),
    aug1 X.Rooovvv_anti (ein1 L.ijkabc L.kijcba Q.Rooovvv),
    aug1 X.Rooovvv_anti (ein1 L.ijkabc L.kjiabc Q.Rooovvv),
    aug1 X.Rooovvv_anti (ein1 L.ijkabc L.kjiacb Q.Rooovvv),
    aug1 X.Rooovvv_anti (ein1 L.ijkabc L.kjibac Q.Rooovvv),
    aug1 X.Rooovvv_anti (ein1 L.ijkabc L.kjibca Q.Rooovvv),
    aug1 X.Rooovvv_anti (ein1 L.ijkabc L.kjicab Q.Rooovvv),
    aug1 X.Rooovvv_anti (ein1 L.ijkabc L.kjicba Q.Rooovvv)]
  ret := [Q.Rooovvv_anti]

/-- `wicked_T3corr.py` 188-195: `antisym_T2`; 4 einsum calls. -/
def wicked_T3corr_antisym_T2 : Fn where
  params := [X.nocc, X.nvir, X.Roovv]
  body := [
    set1 X.Roovv_anti (.zeros [X.nocc, X.nocc, X.nvir, X.nvir]),
    aug1 X.Roovv_anti (ein1 L.ijab L.ijab Q.Roovv),
    aug1 X.Roovv_anti (ein1 L.ijab L.jiab Q.Roovv),
    aug1 X.Roovv_anti (ein1 L.ijab L.ijba Q.Roovv),
    aug1 X.Roovv_anti (ein1 L.ijab L.jiba Q.Roovv)]
  ret := [Q.Roovv_anti]

/-- `antisym_t4resids.py` 125-132: `antisymmetrize_residual_2_2`; 4 einsum calls. -/
def antisym_t4resids_antisymmetrize_residual_2_2 : Fn where
  params := [X.Roovv, X.nocc, X.nvir]
  body := [
    set1 X.Roovv_anti (.zeros [X.nocc, X.nocc, X.nvir, X.nvir]),
    aug1 X.Roovv_anti (ein1 L.ijab L.ijab Q.Roovv),
    aug1 X.Roovv_anti (ein1 L.ijab L.jiab Q.Roovv),
    aug1 X.Roovv_anti (ein1 L.ijab L.ijba Q.Roovv),
    aug1 X.Roovv_anti (ein1 L.ijab L.jiba Q.Roovv)]
  ret := [Q.Roovv_anti]

/-- `antisym_t4resids.py` 134-147: `antisym_A`; 12 einsum calls. -/
def antisym_t4resids_antisym_A : Fn where
  params := [X.A]
  body := [
    set1 X.A_vvv_voo (ein1 L.ijabcf L.ijabcf Q.A),
    aug1 X.A_vvv_voo (ein1 L.ijabcf L.ijacbf Q.A),
    aug1 X.A_vvv_voo (ein1 L.ijabcf L.ijbacf Q.A),
    aug1 X.A_vvv_voo (ein1 L.ijabcf L.ijbcaf Q.A),
    aug1 X.A_vvv_voo (ein1 L.ijabcf L.ijcbaf Q.A),
    aug1 X.A_vvv_voo (ein1 L.ijabcf L.ijcabf Q.A),
    aug1 X.A_vvv_voo (ein1 L.ijabcf L.jiabcf Q.A),
    aug1 X.A_vvv_voo (ein1 L.ijabcf L.jiacbf Q.A),
    aug1 X.A_vvv_voo (ein1 L.ijabcf L.jibacf Q.A),
    aug1 X.A_vvv_voo (ein1 L.ijabcf L.jibcaf Q.A),
    aug1 X.A_vvv_voo (ein1 L.ijabcf L.jicbaf Q.A),
    aug1 X.A_vvv_voo (ein1 L.ijabcf L.jicabf Q.A)]
  ret := [Q.A_vvv_voo]

/-- `antisym_t4resids.py` 149-198: `antisym_T3`; 48 einsum calls. -/
def antisym_t4resids_antisym_T3 : Fn where
  params := [X.Roooovvvv]
  body := [
    set1 X.Roooovvvv_anti (ein1 L.ijabcd L.ijabcd Q.Roooovvvv),
    aug1 X.Roooovvvv_anti (ein1 L.ijabcd L.ijabdc Q.Roooovvvv),
    aug1 X.Roooovvvv_anti (ein1 L.ijabcd L.ijacbd Q.Roooovvvv),
    aug1 X.Roooovvvv_anti (ein1 L.ijabcd L.ijacdb Q.Roooovvvv),
    aug1 X.Roooovvvv_anti (ein1 L.ijabcd L.ijadcb Q.Roooovvvv),
    aug1 X.Roooovvvv_anti (ein1 L.ijabcd L.ijadbc Q.Roooovvvv),
    aug1 X.Roooovvvv_anti (ein1 L.ijabcd L.ijbacd Q.Roooovvvv),
    aug1 X.Roooovvvv_anti (ein1 L.ijabcd L.ijbadc Q.Roooovvvv),
    aug1 X.Roooovvvv_anti (ein1 L.ijabcd L.ijbcad Q.Roooovvvv),
    aug1 X.Roooovvvv_anti (ein1 L.ijabcd L.ijbcda Q.Roooovvvv),
    aug1 X.Roooovvvv_anti (ein1 L.ijabcd L.ijbdca Q.Roooovvvv),
    aug1 X.Roooovvvv_anti (ein1 L.ijabcd L.ijbdac Q.Roooovvvv),
    aug1 X.Roooovvvv_anti (ein1 L.ijabcd L.ijcbad Q.Roooovvvv),
    aug1 X.Roooovvvv_anti (ein1 L.ijabcd L.ijcbda Q.Roooovvvv),
    aug1 X.Roooovvvv_anti (ein1 L.ijabcd L.ijcabd Q.Roooovvvv),
    aug1 X.Roooovvvv_anti (ein1 L.ijabcd L.ijcadb Q.Roooovvvv),
    aug1 X.Roooovvvv_anti (ein1 L.ijabcd L.ijcdab Q.Roooovvvv),
    aug1 X.Roooovvvv_anti (ein1 L.ijabcd L.ijcdba Q.Roooovvvv),
    aug1 X.Roooovvvv_anti (ein1 L.ijabcd L.ijdbca Q.Roooovvvv),
    aug1 X.Roooovvvv_anti (ein1 L.ijabcd L.ijdbac Q.Roooovvvv),
    aug1 X.Roooovvvv_anti (ein1 L.ijabcd L.ijdcba Q.Roooovvvv),
    aug1 X.Roooovvvv_anti (ein1 L.ijabcd L.ijdcab Q.Roooovvvv),
    aug1 X.Roooovvvv_anti (ein1 L.ijabcd L.ijdacb Q.Roooovvvv),
    aug1 X.Roooovvvv_anti (ein1 L.ijabcd L.ijdabc Q.Roooovvvv),
    aug1 X.Roooovvvv_anti (ein1 L.ijabcd L.jiabcd Q.Roooovvvv),
    aug1 X.Roooovvvv_anti (ein1 L.ijabcd L.jiabdc Q.Roooovvvv),
    aug1 X.Roooovvvv_anti (ein1 L.ijabcd L.jiacbd Q.Roooovvvv),
    aug1 X.Roooovvvv_anti (ein1 L.ijabcd L.jiacdb Q.Roooovvvv),
    aug1 X.Roooovvvv_anti (ein1 L.ijabcd L.jiadcb Q.Roooovvvv),
    aug1 X.Roooovvvv_anti (ein1 L.ijabcd L.jiadbc Q.Roooovvvv),
    aug1 X.Roooovvvv_anti (ein1 L.ijabcd L.jibacd Q.Roooovvvv),
    aug1 X.Roooovvvv_anti (ein1 L.ijabcd L.jibadc Q.Roooovvvv),
    aug1 X.Roooovvvv_anti (ein1 L.ijabcd L.jibcad Q.Roooovvvv),
    aug1 X.Roooovvvv_anti (ein1 L.ijabcd L.jibcda Q.Roooovvvv),
    aug1 X.Roooovvvv_anti (ein1 L.ijabcd L.jibdca Q.Roooovvvv),
    aug1 X.Roooovvvv_anti (ein1 L.ijabcd L.jibdac Q.Roooovvvv),
    aug1 X.Roooovvvv_anti (ein1 L.ijabcd L.jicbad Q.Roooovvvv),
    aug1 X.Roooovvvv_anti (ein1 L.ijabcd L.jicbda Q.Roooovvvv),
    aug1 X.Roooovvvv_anti (ein1 L.ijabcd L.jicabd Q.Roooovvvv),
    aug1 X.Roooovvvv_anti (ein1 L.ijabcd L.jicadb Q.Roooovvvv),
    aug1 X.Roooovvvv_anti (ein1 L.ijabcd L.jicdab Q.Roooovvvv),
    aug1 X.Roooovvvv_anti (ein1 L.ijabcd L.jicdba Q.Roooovvvv),
    aug1 X.Roooovvvv_anti (ein1 L.ijabcd L.jidbca Q.Roooovvvv),
    aug1 X.Roooovvvv_anti (ein1 L.ijabcd L.jidbac Q.Roooovvvv),
    aug1 X.Roooovvvv_anti (ein1 L.ijabcd L.jidcba Q.Roooovvvv),
    aug1 X.Roooovvvv_anti (ein1 L.ijabcd L.jidcab Q.Roooovvvv),
    aug1 X.Roooovvvv_anti (ein1 L.ijabcd L.jidacb Q.Roooovvvv),
    aug1 X.Roooovvvv_anti (ein1 L.ijabcd L.jidabc Q.Roooovvvv)]
  ret := [Q.Roooovvvv_anti]

/-- `antisym_t4resids.py` 251-264: `xccd_6`; 3 einsum calls. -/
def antisym_t4resids_xccd_6 : Fn where
  params := [X.nocc, X.nvir, X.t2_aa, X.g]
  body := [
    set1 X.Roooovvvv (.zeros [X.nocc, X.nocc, X.nocc, X.nocc, X.nvir, X.nvir, X.nvir, X.nvir]),
    set1 X.t (.arg Q.t2_aa_t2301),
    set1 X.v_oo (.arg Q.g_oooo),
    set1 X.v_vo (.arg Q.g_ovov),
    set1 X.v_vv (.arg Q.g_vvvv),
    set1 X.v_m2 (.arg Q.g_vvoo),
    set1 X.Roooovvvv_t23 (ein4 L.imab L.jncd L.klef L.efmn L.ijklabcd Q.t Q.t Q.t Q.v_m2),
    aug1 X.Roooovvvv_t23 (ein4 L.imab L.jkce L.lndf L.efmn L.ijklabcd Q.t Q.t Q.t Q.v_m2),
    aug1 X.Roooovvvv_t23 (ein4 L.mnab L.ijce L.kldf L.efmn L.ijklabcd Q.t Q.t Q.t Q.v_m2),
    set1 X.Roooovvvv (.call F.antisym_t4resids_antisym_t4_residual [Q.Roooovvvv, Q.nocc, Q.nvir])]
  ret := [Q.Roooovvvv]

/-- `antisym_t4resids.py` 475-1054: `antisym_t4_residual`; 576 einsum calls. -/
def antisym_t4resids_antisym_t4_residual : Fn where
  params := [X.Roooovvvv, X.nocc, X.nvirt]
  body := [
    set1 X.Roooovvvv_anti (.zeros [X.nocc, X.nocc, X.nocc, X.nocc, X.nvirt, X.nvirt, X.nvirt, X.nvirt]),
    set1 X.Roooovvvv_anti (ein1 L.ijklabcd L.ijklabcd Q.Roooovvvv),
    aug1 X.Roooovvvv_anti (ein1 L.ijklabcd L.ijklabdc Q.Roooovvvv),
    aug1 X.Roooovvvv_anti (ein1 L.ijklabcd L.ijklacbd Q.Roooovvvv),
    aug1 X.Roooovvvv_anti (ein1 L.ijklabcd L.ijklacdb Q.Roooovvvv),
    aug1 X.Roooovvvv_anti (ein1 L.ijklabcd L.ijkladcb Q.Roooovvvv),
    aug1 X.Roooovvvv_anti (ein1 L.ijklabcd L.ijkladbc Q.Roooovvvv),
    aug1 X.Roooovvvv_anti (ein1 L.ijklabcd L.ijklbacd Q.Roooovvvv),
    aug1 X.Roooovvvv_anti (ein1 L.ijklabcd L.ijklbadc Q.Roooovvvv),
    aug1 X.Roooovvvv_anti (ein1 L.ijklabcd L.ijklbcad Q.Roooovvvv),
    aug1 X.Roooovvvv_anti (ein1 L.ijklabcd L.ijklbcda Q.Roooovvvv),
    aug1 X.Roooovvvv_anti (ein1 L.ijklabcd L.ijklbdca Q.Roooovvvv),
    aug1 X.Roooovvvv_anti (ein1 L.ijklabcd L.ijklbdac Q.Roooovvvv),
    aug1 X.Roooovvvv_anti (ein1 L.ijklabcd L.ijklcbad Q.Roooovvvv),
    aug1 X.Roooovvvv_anti (ein1 L.ijklabcd L.ijklcbda Q.Roooovvvv),
    aug1 X.Roooovvvv_anti (ein1 L.ijklabcd L.ijklcabd Q.Roooovvvv),
    aug1 X.Roooovvvv_anti (ein1 L.ijklabcd L.ijklcadb Q.Roooovvvv),
    aug1 X.Roooovvvv_anti (ein1 L.ijklabcd L.ijklcdab Q.Roooovvvv),
    aug1 X.Roooovvvv_anti (ein1 L.ijklabcd L.ijklcdba Q.Roooovvvv),
    aug1 X.Roooovvvv_anti (ein1 L.ijklabcd L.ijkldbca Q.Roooovvvv),
    aug1 X.Roooovvvv_anti (ein1 L.ijklabcd L.ijkldbac Q.Roooovvvv),
    aug1 X.Roooovvvv_anti (ein1 L.ijklabcd L.ijkldcba Q.Roooovvvv),
    aug1 X.Roooovvvv_anti (ein1 L.ijklabcd L.ijkldcab Q.Roooovvvv),
    aug1 X.Roooovvvv_anti (ein1 L.ijklabcd L.ijkldacb Q.Roooovvvv),
    aug1 X.Roooovvvv_anti (ein1 L.ijklabcd L.ijkldabc Q.Roooovvvv),
    aug1 X.Roooovvvv_anti (ein1 L.ijklabcd L.ijlkabcd Q.Roooovvvv),
    aug1 X.Roooovvvv_anti (ein1 L.ijklabcd L.ijlkabdc Q.Roooovvvv),
    aug1 X.Roooovvvv_anti (ein1 L.ijklabcd L.ijlkacbd Q.Roooovvvv),
    aug1 X.Roooovvvv_anti (ein1 L.ijklabcd L.ijlkacdb Q.Roooovvvv),
    aug1 X.Roooovvvv_anti (ein1 L.ijklabcd L.ijlkadcb Q.Roooovvvv),
    aug1 X.Roooovvvv_anti (ein1 L.ijklabcd L.ijlkadbc Q.Roooovvvv),
    aug1 X.Roooovvvv_anti (ein1 L.ijklabcd L.ijlkbacd Q.Roooovvvv),
    aug1 X.Roooovvvv_anti (ein1 L.ijklabcd L.ijlkbadc Q.Roooovvvv),
    aug1 X.Roooovvvv_anti (ein1 L.ijklabcd L.ijlkbcad Q.Roooovvvv),
    aug1 X.Roooovvvv_anti (ein1 L.ijklabcd L.ijlkbcda Q.Roooovvvv),
    aug1 X.Roooovvvv_anti (ein1 L.ijklabcd L.ijlkbdca Q.Roooovvvv),
    aug1 X.Roooovvvv_anti (ein1 L.ijklabcd L.ijlkbdac Q.Roooovvvv),
    aug1 X.Roooovvvv_anti (ein1 L.ijklabcd L.ijlkcbad Q.Roooovvvv),
    aug1 X.Roooovvvv_anti (ein1 L.ijklabcd L.ijlkcbda Q.Roooovvvv),
    aug1 X.Roooovvvv_anti (ein1 L.ijklabcd L.ijlkcabd Q.Roooovvvv),
    aug1 X.Roooovvvv_anti (ein1 L.ijklabcd L.ijlkcadb Q.Roooovvvv),
    aug1 X.Roooovvvv_anti (ein1 L.ijklabcd L.ijlkcdab Q.Roooovvvv),
    aug1 X.Roooovvvv_anti (ein1 L.ijklabcd L.ijlkcdba Q.Roooovvvv),
    aug1 X.Roooovvvv_anti (ein1 L.ijklabcd L.ijlkdbca Q.Roooovvvv),
    aug1 X.Roooovvvv_anti (ein1 L.ijklabcd L.ijlkdbac Q.Roooovvvv),
    aug1 X.Roooovvvv_anti (ein1 L.ijklabcd L.ijlkdcba Q.Roooovvvv),
    aug1 X.Roooovvvv_anti (ein1 L.ijklabcd L.ijlkdcab Q.Roooovvvv),
    aug1 X.Roooovvvv_anti (ein1 L.ijklabcd L.ijlkdacb Q.Roooovvvv),
    aug1 X.Roooovvvv_anti (ein1 L.ijklabcd L.ijlkdabc Q.Roooovvvv),
    aug1 X.Roooovvvv_anti (ein1 L.ijklabcd L.ikjlabcd Q.Roooovvvv),
    aug1 X.Roooovvvv_anti (ein1 L.ijklabcd L.ikjlabdc Q.Roooovvvv),
    aug1 X.Roooovvvv_anti (ein1 L.ijklabcd L.ikjlacbd Q.Roooovvvv),
    aug1 X.Roooovvvv_anti (ein1 L.ijklabcd L.ikjlacdb Q.Roooovvvv),
    aug1 X.Roooovvvv_anti (ein1 L.ijklabcd L.ikjladcb Q.Roooovvvv),
    aug1 X.Roooovvvv_anti (ein1 L.ijklabcd L.ikjladbc Q.Roooovvvv),
    aug1 X.Roooovvvv_anti (ein1 L.ijklabcd L.ikjlbacd Q.Roooovvvv),
    aug1 X.Roooovvvv_anti (ein1 L.ijklabcd L.ikjlbadc Q.Roooovvvv),
    aug1 X.Roooovvvv_anti (ein1 L.ijklabcd L.ikjlbcad Q.Roooovvvv),
    aug1 X.Roooovvvv_anti (ein1 L.ijklabcd L.ikjlbcda Q.Roooovvvv),
    aug1 X.Roooovvvv_anti (ein1 L.ijklabcd L.ikjlbdca Q.Roooovvvv),
    aug1 X.Roooovvvv_anti (ein1 L.ijklabcd L.ikjlbdac Q.Roooovvvv),
    aug1 X.Roooovvvv_anti (ein1 L.ijklabcd L.ikjlcbad Q.Roooovvvv),
    aug1 X.Roooovvvv_anti (ein1 L.ijklabcd L.ikjlcbda Q.Roooovvvv),
    aug1 X.Roooovvvv_anti (ein1 L.ijklabcd L.ikjlcabd Q.Roooovvvv),
    aug1 X.Roooovvvv_anti (ein1 L.ijklabcd L.ikjlcadb Q.Roooovvvv),
    aug1 X.Roooovvvv_anti (ein1 L.ijklabcd L.ikjlcdab Q.Roooovvvv),
    aug1 X.Roooovvvv_anti (ein1 L.ijklabcd L.ikjlcdba Q.Roooovvvv),
    aug1 X.Roooovvvv_anti (ein1 L.ijklabcd L.ikjldbca Q.Roooovvvv),
    aug1 X.Roooovvvv_anti (ein1 L.ijklabcd L.ikjldbac Q.Roooovvvv),
    aug1 X.Roooovvvv_anti (ein1 L.ijklabcd L.ikjldcba Q.Roooovvvv),
    aug1 X.Roooovvvv_anti (ein1 L.ijklabcd L.ikjldcab Q.Roooovvvv),
    aug1 X.Roooovvvv_anti (ein1 L.ijklabcd L.ikjldacb Q.Roooovvvv),
    aug1 X.Roooovvvv_anti (ein1 L.ijklabcd L.ikjldabc Q.Roooovvvv),
    aug1 X.Roooovvvv_anti (ein1 L.ijklabcd L.ikljabcd Q.Roooovvvv),
    aug1 X.Roooovvvv_anti (ein1 L.ijklabcd L.ikljabdc Q.Roooovvvv),
    aug1 X.Roooovvvv_anti (ein1 L.ijklabcd L.ikljacbd Q.Roooovvvv),
    aug1 X.Roooovvvv_anti (ein1 L.ijklabcd L.ikljacdb Q.Roooovvvv),
    aug1 X.Roooovvvv_anti (ein1 L.ijklabcd L.ikljadcb Q.Roooovvvv),
    aug1 X.Roooovvvv_anti (ein1 L.ijklabcd L.ikljadbc Q.Roooovvvv),
    aug1 X.Roooovvvv_anti (ein1 L.ijklabcd L.ikljbacd Q.Roooovvvv),
    aug1 X.Roooovvvv_anti (ein1 L.ijklabcd L.ikljbadc Q.Roooovvvv),
    aug1 X.Roooovvvv_anti (ein1 L.ijklabcd L.ikljbcad Q.Roooovvvv),
    aug1 X.Roooovvvv_anti (ein1 L.ijklabcd L.ikljbcda Q.Roooovvvv),
    aug1 X.Roooovvvv_anti (ein1 L.ijklabcd L.ikljbdca Q.Roooovvvv),
    aug1 X.Roooovvvv_anti (ein1 L.ijklabcd L.ikljbdac Q.Roooovvvv),
    aug1 X.Roooovvvv_anti (ein1 L.ijklabcd L.ikljcbad Q.Roooovvvv),
    aug1 X.Roooovvvv_anti (ein1 L.ijklabcd L.ikljcbda Q.Roooovvvv),
    aug1 X.Roooovvvv_anti (ein1 L.ijklabcd L.ikljcabd Q.Roooovvvv),
    aug1 X.Roooovvvv_anti (ein1 L.ijklabcd L.ikljcadb Q.Roooovvvv),
    aug1 X.Roooovvvv_anti (ein1 L.ijklabcd L.ikljcdab Q.Roooovvvv),
    aug1 X.Roooovvvv_anti (ein1 L.ijklabcd L.ikljcdba Q.Roooovvvv),
    aug1 X.Roooovvvv_anti (ein1 L.ijklabcd L.ikljdbca Q.Roooovvvv),
    aug1 X.Roooovvvv_anti (ein1 L.ijklabcd L.ikljdbac Q.Roooovvvv),
    aug1 X.Roooovvvv_anti (ein1 L.ijklabcd L.ikljdcba Q.Roooovvvv),
    aug1 X.Roooovvvv_anti (ein1 L.ijklabcd L.ikljdcab Q.Roooovvvv),
    aug1 X.Roooovvvv_anti (ein1 L.ijklabcd L.ikljdacb Q.Roooovvvv),
    aug1 X.Roooovvvv_anti (ein1 L.ijklabcd L.ikljdabc Q.Roooovvvv),
    aug1 X.Roooovvvv_anti (ein1 L.ijklabcd L.ilkjabcd Q.Roooovvvv),
    aug1 X.Roooovvvv_anti (ein1 L.ijklabcd L.ilkjabdc Q.Roooovvvv),
    aug1 X.Roooovvvv_anti (ein1 L.ijklabcd L.ilkjacbd Q.Roooovvvv),
    aug1 X.Roooovvvv_anti (ein1 L.ijklabcd L.ilkjacdb Q.Roooovvvv),
    aug1 X.Roooovvvv_anti (ein1 L.ijklabcd L.ilkjadcb Q.Roooovvvv),
    aug1 X.Roooovvvv_anti (ein1 L.ijklabcd L.ilkjadbc Q.Roooovvvv),
    aug1 X.Roooovvvv_anti (ein1 L.ijklabcd L.ilkjbacd Q.Roooovvvv),
    aug1 X.Roooovvvv_anti (ein1 L.ijklabcd L.ilkjbadc Q.Roooovvvv),
    aug1 X.Roooovvvv_anti (ein1 L.ijklabcd L.ilkjbcad Q.Roooovvvv),
    aug1 X.Roooovvvv_anti (ein1 L.ijklabcd L.ilkjbcda Q.Roooovvvv),
    aug1 X.Roooovvvv_anti (ein1 L.ijklabcd L.ilkjbdca Q.Roooovvvv),
    aug1 X.Roooovvvv_anti (ein1 L.ijklabcd L.ilkjbdac Q.Roooovvvv),
    aug1 X.Roooovvvv_anti (ein1 L.ijklabcd L.ilkjcbad Q.Roooovvvv),
    aug1 X.Roooovvvv_anti (ein1 L.ijklabcd L.ilkjcbda Q.Roooovvvv),
    aug1 X.Roooovvvv_anti (ein1 L.ijklabcd L.ilkjcabd Q.Roooovvvv),
    aug1 X.Roooovvvv_anti (ein1 L.ijklabcd L.ilkjcadb Q.Roooovvvv),
    aug1 X.Roooovvvv_anti (ein1 L.ijklabcd L.ilkjcdab Q.Roooovvvv),
    aug1 X.Roooovvvv_anti (ein1 L.ijklabcd L.ilkjcdba Q.Roooovvvv),
    aug1 X.Roooovvvv_anti (ein1 L.ijklabcd L.ilkjdbca Q.Roooovvvv),
    aug1 X.Roooovvvv_anti (ein1 L.ijklabcd L.ilkjdbac Q.Roooovvvv),
    aug1 X.Roooovvvv_anti (ein1 L.ijklabcd L.ilkjdcba Q.Roooovvvv),
    aug1 X.Roooovvvv_anti (ein1 L.ijklabcd L.ilkjdcab Q.Roooovvvv),
    aug1 X.Roooovvvv_anti (ein1 L.ijklabcd L.ilkjdacb Q.Roooovvvv),
    aug1 X.Roooovvvv_anti (ein1 L.ijklabcd L.ilkjdabc Q.Roooovvvv),
    aug1 X.Roooovvvv_anti (ein1 L.ijklabcd L.iljkabcd Q.Roooovvvv),
    aug1 X.Roooovvvv_anti (ein1 L.ijklabcd L.iljkabdc Q.Roooovvvv),
    aug1 X.Roooovvvv_anti (ein1 L.ijklabcd L.iljkacbd Q.Roooovvvv),
    aug1 X.Roooovvvv_anti (ein1 L.ijklabcd L.iljkacdb Q.Roooovvvv),
    aug1 X.Roooovvvv_anti (ein1 L.ijklabcd L.iljkadcb Q.Roooovvvv),
    aug1 X.Roooovvvv_anti (ein1 L.ijklabcd L.iljkadbc Q.Roooovvvv),
    aug1 X.Roooovvvv_anti (ein1 L.ijklabcd L.iljkbacd Q.Roooovvvv),
    aug1 X.Roooovvvv_anti (ein1 L.ijklabcd L.iljkbadc Q.Roooovvvv),
    aug1 X.Roooovvvv_anti (ein1 L.ijklabcd L.iljkbcad Q.Roooovvvv),
    aug1 X.Roooovvvv_anti (ein1 L.ijklabcd L.iljkbcda Q.Roooovvvv),
    aug1 X.Roooovvvv_anti (ein1 L.ijklabcd L.iljkbdca Q.Roooovvvv),
    aug1 X.Roooovvvv_anti (ein1 L.ijklabcd L.iljkbdac Q.Roooovvvv),
    aug1 X.Roooovvvv_anti (ein1 L.ijklabcd L.iljkcbad Q.Roooovvvv),
    aug1 X.Roooovvvv_anti (ein1 L.ijklabcd L.iljkcbda Q.Roooovvvv),
    aug1 X.Roooovvvv_anti (ein1 L.ijklabcd L.iljkcabd Q.Roooovvvv),
    aug1 X.Roooovvvv_anti (ein1 L.ijklabcd L.iljkcadb Q.Roooovvvv),
    aug1 X.Roooovvvv_anti (ein1 L.ijklabcd L.iljkcdab Q.Roooovvvv),
    aug1 X.Roooovvvv_anti (ein1 L.ijklabcd L.iljkcdba Q.Roooovvvv),
    aug1 X.Roooovvvv_anti (ein1 L.ijklabcd L.iljkdbca Q.Roooovvvv),
    aug1 X.Roooovvvv_anti (ein1 L.ijklabcd L.iljkdbac Q.Roooovvvv),
    aug1 X.Roooovvvv_anti (ein1 L.ijklabcd L.iljkdcba Q.Roooovvvv),
    aug1 X.Roooovvvv_anti (ein1 L.ijklabcd L.iljkdcab Q.Roooovvvv),
    aug1 X.Roooovvvv_anti (ein1 L.ijklabcd L.iljkdacb Q.Roooovvvv),
    aug1 X.Roooovvvv_anti (ein1 L.ijklabcd L.iljkdabc Q.Roooovvvv),
    aug1 X.Roooovvvv_anti (ein1 L.ijklabcd L.jiklabcd Q.Roooovvvv),
    aug1 X.Roooovvvv_anti (ein1 L.ijklabcd L.jiklabdc Q.Roooovvvv),
    aug1 X.Roooovvvv_anti (ein1 L.ijklabcd L.jiklacbd Q.Roooovvvv),
    aug1 X.Roooovvvv_anti (ein1 L.ijklabcd L.jiklacdb Q.Roooovvvv),
    aug1 X.Roooovvvv_anti (ein1 L.ijklabcd L.jikladcb Q.Roooovvvv),
    aug1 X.Roooovvvv_anti (ein1 L.ijklabcd L.jikladbc Q.Roooovvvv),
    aug1 X.Roooovvvv_anti (ein1 L.ijklabcd L.jiklbacd Q.Roooovvvv),
    aug1 X.Roooovvvv_anti (ein1 L.ijklabcd L.jiklbadc Q.Roooovvvv),
    aug1 X.Roooovvvv_anti (ein1 L.ijklabcd L.jiklbcad Q.Roooovvvv),
    aug1 X.Roooovvvv_anti (ein1 L.ijklabcd L.jiklbcda Q.Roooovvvv),
    aug1 X.Roooovvvv_anti (ein1 L.ijklabcd L.jiklbdca Q.Roooovvvv),
    aug1 X.Roooovvvv_anti (ein1 L.ijklabcd L.jiklbdac Q.Roooovvvv),
    aug1 X.Roooovvvv_anti (ein1 L.ijklabcd L.jiklcbad Q.Roooovvvv),
    aug1 X.Roooovvvv_anti (ein1 L.ijklabcd L.jiklcbda Q.Roooovvvv),
    aug1 X.Roooovvvv_anti (ein1 L.ijklabcd L.jiklcabd Q.Roooovvvv),
    aug1 X.Roooovvvv_anti (ein1 L.ijklabcd L.jiklcadb Q.Roooovvvv),
    aug1 X.Roooovvvv_anti (ein1 L.ijklabcd L.jiklcdab Q.Roooovvvv),
    aug1 X.Roooovvvv_anti (ein1 L.ijklabcd L.jiklcdba Q.Roooovvvv),
    aug1 X.Roooovvvv_anti (ein1 L.ijklabcd L.jikldbca Q.Roooovvvv),
    aug1 X.Roooovvvv_anti (ein1 L.ijklabcd L.jikldbac Q.Roooovvvv),
    aug1 X.Roooovvvv_anti (ein1 L.ijklabcd L.jikldcba Q.Roooovvvv),
    aug1 X.Roooovvvv_anti (ein1 L.ijklabcd L.jikldcab Q.Roooovvvv),
    aug1 X.Roooovvvv_anti (ein1 L.ijklabcd L.jikldacb Q.Roooovvvv),
    aug1 X.Roooovvvv_anti (ein1 L.ijklabcd L.jikldabc Q.Roooovvvv),
    aug1 X.Roooovvvv_anti (ein1 L.ijklabcd L.jilkabcd Q.Roooovvvv),
    aug1 X.Roooovvvv_anti (ein1 L.ijklabcd L.jilkabdc Q.Roooovvvv),
    aug1 X.Roooovvvv_anti (ein1 L.ijklabcd L.jilkacbd Q.Roooovvvv),
    aug1 X.Roooovvvv_anti (ein1 L.ijklabcd L.jilkacdb Q.Roooovvvv),
    aug1 X.Roooovvvv_anti (ein1 L.ijklabcd L.jilkadcb Q.Roooovvvv),
    aug1 X.Roooovvvv_anti (ein1 L.ijklabcd L.jilkadbc Q.Roooovvvv),
    aug1 X.Roooovvvv_anti (ein1 L.ijklabcd L.jilkbacd Q.Roooovvvv),
    aug1 X.Roooovvvv_anti (ein1 L.ijklabcd L.jilkbadc Q.Roooovvvv),
    aug1 X.Roooovvvv_anti (ein1 L.ijklabcd L.jilkbcad Q.Roooovvvv),
    aug1 X.Roooovvvv_anti (ein1 L.ijklabcd L.jilkbcda Q.Roooovvvv),
    aug1 X.Roooovvvv_anti (ein1 L.ijklabcd L.jilkbdca Q.Roooovvvv),
    aug1 X.Roooovvvv_anti (ein1 L.ijklabcd L.jilkbdac Q.Roooovvvv),
    aug1 X.Roooovvvv_anti (ein1 L.ijklabcd L.jilkcbad Q.Roooovvvv),
    aug1 X.Roooovvvv_anti (ein1 L.ijklabcd L.jilkcbda Q.Roooovvvv),
    aug1 X.Roooovvvv_anti (ein1 L.ijklabcd L.jilkcabd Q.Roooovvvv),
    aug1 X.Roooovvvv_anti (ein1 L.ijklabcd L.jilkcadb Q.Roooovvvv),
    aug1 X.Roooovvvv_anti (ein1 L.ijklabcd L.jilkcdab Q.Roooovvvv),
    aug1 X.Roooovvvv_anti (ein1 L.ijklabcd L.jilkcdba Q.Roooovvvv),
    aug1 X.Roooovvvv_anti (ein1 L.ijklabcd L.jilkdbca Q.Roooovvvv),
    aug1 X.Roooovvvv_anti (ein1 L.ijklabcd L.jilkdbac Q.Roooovvvv),
    aug1 X.Roooovvvv_anti (ein1 L.ijklabcd L.jilkdcba Q.Roooovvvv),
    aug1 X.Roooovvvv_anti (ein1 L.ijklabcd L.jilkdcab Q.Roooovvvv),
    aug1 X.Roooovvvv_anti (ein1 L.ijklabcd L.jilkdacb Q.Roooovvvv),
    aug1 X.Roooovvvv_anti (ein1 L.ijklabcd L.jilkdabc Q.Roooovvvv),
    aug1 X.Roooovvvv_anti (ein1 L.ijklabcd L.jkilabcd Q.Roooovvvv),
    aug1 X.Roooovvvv_anti (ein1 L.ijklabcd L.jkilabdc Q.Roooovvvv),
    aug1 X.Roooovvvv_anti (ein1 L.ijklabcd L.jkilacbd Q.Roooovvvv),
    aug1 X.Roooovvvv_anti (ein1 L.ijklabcd L.jkilacdb Q.Roooovvvv),
    aug1 X.Roooovvvv_anti (ein1 L.ijklabcd L.jkiladcb Q.Roooovvvv),
    aug1 X.Roooovvvv_anti (ein1 L.ijklabcd L.jkiladbc Q.Roooovvvv),
    aug1 X.Roooovvvv_anti (ein1 L.ijklabcd L.jkilbacd Q.Roooovvvv),
    aug1 X.Roooovvvv_anti (ein1 L.ijklabcd L.jkilbadc Q.Roooovvvv),
    aug1 X.Roooovvvv_anti (ein1 L.ijklabcd L.jkilbcad Q.Roooovvvv),
    aug1 X.Roooovvvv_anti (ein1 L.ijklabcd L.jkilbcda Q.Roooovvvv),
    aug1 X.Roooovvvv_anti (ein1 L.ijklabcd L.jkilbdca Q.Roooovvvv),
    aug1 X.Roooovvvv_anti (ein1 L.ijklabcd L.jkilbdac Q.Roooovvvv),
    aug1 X.Roooovvvv_anti (ein1 L.ijklabcd L.jkilcbad Q.Roooovvvv),
    aug1 X.Roooovvvv_anti (ein1 L.ijklabcd L.jkilcbda Q.Roooovvvv),
    aug1 X.Roooovvvv_anti (ein1 L.ijklabcd L.jkilcabd Q.Roooovvvv),
    aug1 X.Roooovvvv_anti (ein1 L.ijklabcd L.jkilcadb Q.Roooovvvv),
    aug1 X.Roooovvvv_anti (ein1 L.ijklabcd L.jkilcdab Q.Roooovvvv),
    aug1 X.Roooovvvv_anti (ein1 L.ijklabcd L.jkilcdba Q.Roooovvvv),
    aug1 X.Roooovvvv_anti (ein1 L.ijklabcd L.jkildbca Q.Roooovvvv),
    aug1 X.Roooovvvv_anti (ein1 L.ijklabcd L.jkildbac Q.Roooovvvv),
    aug1 X.Roooovvvv_anti (ein1 L.ijklabcd L.jkildcba Q.Roooovvvv),
    aug1 X.Roooovvvv_anti (ein1 L.ijklabcd L.jkildcab Q.Roooovvvv),
    aug1 X.Roooovvvv_anti (ein1 L.ijklabcd L.jkildacb Q.Roooovvvv),
    aug1 X.Roooovvvv_anti (ein1 L.ijklabcd L.jkildabc Q.Roooovvvv),
    aug1 X.Roooovvvv_anti (ein1 L.ijklabcd L.jkliabcd Q.Roooovvvv),
    aug1 X.Roooovvvv_anti (ein1 L.ijklabcd L.jkliabdc Q.Roooovvvv),
    aug1 X.Roooovvvv_anti (ein1 L.ijklabcd L.jkliacbd Q.Roooovvvv),
    aug1 X.Roooovvvv_anti (ein1 L.ijklabcd L.jkliacdb Q.Roooovvvv),
    aug1 X.Roooovvvv_anti (ein1 L.ijklabcd L.jkliadcb Q.Roooovvvv),
    aug1 X.Roooovvvv_anti (ein1 L.ijklabcd L.jkliadbc Q.Roooovvvv),
    aug1 X.Roooovvvv_anti (ein1 L.ijklabcd L.jklibacd Q.Roooovvvv),
    aug1 X.Roooovvvv_anti (ein1 L.ijklabcd L.jklibadc Q.Roooovvvv),
    aug1 X.Roooovvvv_anti (ein1 L.ijklabcd L.jklibcad Q.Roooovvvv),
    aug1 X.Roooovvvv_anti (ein1 L.ijklabcd L.jklibcda Q.Roooovvvv),
    aug1 X.Roooovvvv_anti (ein1 L.ijklabcd L.jklibdca Q.Roooovvvv),
    aug1 X.Roooovvvv_anti (ein1 L.ijklabcd L.jklibdac Q.Roooovvvv),
    aug1 X.Roooovvvv_anti (ein1 L.ijklabcd L.jklicbad Q.Roooovvvv),
    aug1 X.Roooovvvv_anti (ein1 L.ijklabcd L.jklicbda Q.Roooovvvv),
    aug1 X.Roooovvvv_anti (ein1 L.ijklabcd L.jklicabd Q.Roooovvvv),
    aug1 X.Roooovvvv_anti (ein1 L.ijklabcd L.jklicadb Q.Roooovvvv),
    aug1 X.Roooovvvv_anti (ein1 L.ijklabcd L.jklicdab Q.Roooovvvv),
    aug1 X.Roooovvvv_anti (ein1 L.ijklabcd L.jklicdba Q.Roooovvvv),
    aug1 X.Roooovvvv_anti (ein1 L.ijklabcd L.jklidbca Q.Roooovvvv),
    aug1 X.Roooovvvv_anti (ein1 L.ijklabcd L.jklidbac Q.Roooovvvv),
    aug1 X.Roooovvvv_anti (ein1 L.ijklabcd L.jklidcba Q.Roooovvvv),
    aug1 X.Roooovvvv_anti (ein1 L.ijklabcd L.jklidcab Q.Roooovvvv),
    aug1 X.Roooovvvv_anti (ein1 L.ijklabcd L.jklidacb Q.Roooovvvv),
    aug1 X.Roooovvvv_anti (ein1 L.ijklabcd L.jklidabc Q.Roooovvvv),
    aug1 X.Roooovvvv_anti (ein1 L.ijklabcd L.jlkiabcd Q.Roooovvvv),
    aug1 X.Roooovvvv_anti (ein1 L.ijklabcd L.jlkiabdc Q.Roooovvvv),
    aug1 X.Roooovvvv_anti (ein1 L.ijklabcd L.jlkiacbd Q.Roooovvvv),
    aug1 X.Roooovvvv_anti (ein1 L.ijklabcd L.jlkiacdb Q.Roooovvvv),
    aug1 X.Roooovvvv_anti (ein1 L.ijklabcd L.jlkiadcb Q.Roooovvvv),
    aug1 X.Roooovvvv_anti (ein1 L.ijklabcd L.jlkiadbc Q.Roooovvvv),
    aug1 X.Roooovvvv_anti (ein1 L.ijklabcd L.jlkibacd Q.Roooovvvv),
    aug1 X.Roooovvvv_anti (ein1 L.ijklabcd L.jlkibadc Q.Roooovvvv),
    aug1 X.Roooovvvv_anti (ein1 L.ijklabcd L.jlkibcad Q.Roooovvvv),
    aug1 X.Roooovvvv_anti (ein1 L.ijklabcd L.jlkibcda Q.Roooovvvv),
    aug1 X.Roooovvvv_anti (ein1 L.ijklabcd L.jlkibdca Q.Roooovvvv),
    aug1 X.Roooovvvv_anti (ein1 L.ijklabcd L.jlkibdac Q.Roooovvvv),
    aug1 X.Roooovvvv_anti (ein1 L.ijklabcd L.jlkicbad Q.Roooovvvv),
    aug1 X.Roooovvvv_anti (ein1 L.ijklabcd L.jlkicbda Q.Roooovvvv),
    aug1 X.Roooovvvv_anti (ein1 L.ijklabcd L.jlkicabd Q.Roooovvvv),
    aug1 X.Roooovvvv_anti (ein1 L.ijklabcd L.jlkicadb Q.Roooovvvv),
    aug1 X.Roooovvvv_anti (ein1 L.ijklabcd L.jlkicdab Q.Roooovvvv),
    aug1 X.Roooovvvv_anti (ein1 L.ijklabcd L.jlkicdba Q.Roooovvvv),
    aug1 X.Roooovvvv_anti (ein1 L.ijklabcd L.jlkidbca Q.Roooovvvv),
    aug1 X.Roooovvvv_anti (ein1 L.ijklabcd L.jlkidbac Q.Roooovvvv),
    aug1 X.Roooovvvv_anti (ein1 L.ijklabcd L.jlkidcba Q.Roooovvvv),
    aug1 X.Roooovvvv_anti (ein1 L.ijklabcd L.jlkidcab Q.Roooovvvv),
    aug1 X.Roooovvvv_anti (ein1 L.ijklabcd L.jlkidacb Q.Roooovvvv),
    aug1 X.Roooovvvv_anti (ein1 L.ijklabcd L.jlkidabc Q.Roooovvvv),
    aug1 X.Roooovvvv_anti (ein1 L.ijklabcd L.jlikabcd Q.Roooovvvv),
    aug1 X.Roooovvvv_anti (ein1 L.ijklabcd L.jlikabdc Q.Roooovvvv),
    aug1 X.Roooovvvv_anti (ein1 L.ijklabcd L.jlikacbd Q.Roooovvvv),
    aug1 X.Roooovvvv_anti (ein1 L.ijklabcd L.jlikacdb Q.Roooovvvv),
    aug1 X.Roooovvvv_anti (ein1 L.ijklabcd L.jlikadcb Q.Roooovvvv),
    aug1 X.Roooovvvv_anti (ein1 L.ijklabcd L.jlikadbc Q.Roooovvvv),
    aug1 X.Roooovvvv_anti (ein1 L.ijklabcd L.jlikbacd Q.Roooovvvv),
    aug1 X.Roooovvvv_anti (ein1 L.ijklabcd L.jlikbadc Q.Roooovvvv),
    aug1 X.Roooovvvv_anti (ein1 L.ijklabcd L.jlikbcad Q.Roooovvvv),
    aug1 X.Roooovvvv_anti (ein1 L.ijklabcd L.jlikbcda Q.Roooovvvv),
    aug1 X.Roooovvvv_anti (ein1 L.ijklabcd L.jlikbdca Q.Roooovvvv),
    aug1 X.Roooovvvv_anti (ein1 L.ijklabcd L.jlikbdac Q.Roooovvvv),
    aug1 X.Roooovvvv_anti (ein1 L.ijklabcd L.jlikcbad Q.Roooovvvv),
    aug1 X.Roooovvvv_anti (ein1 L.ijklabcd L.jlikcbda Q.Roooovvvv),
    aug1 X.Roooovvvv_anti (ein1 L.ijklabcd L.jlikcabd Q.Roooovvvv),
    aug1 X.Roooovvvv_anti (ein1 L.ijklabcd L.jlikcadb Q.Roooovvvv),
    aug1 X.Roooovvvv_anti (ein1 L.ijklabcd L.jlikcdab Q.Roooovvvv),
    aug1 X.Roooovvvv_anti (ein1 L.ijklabcd L.jlikcdba Q.Roooovvvv),
    aug1 X.Roooovvvv_anti (ein1 L.ijklabcd L.jlikdbca Q.Roooovvvv),
    aug1 X.Roooovvvv_anti (ein1 L.ijklabcd L.jlikdbac Q.Roooovvvv),
    aug1 X.Roooovvvv_anti (ein1 L.ijklabcd L.jlikdcba Q.Roooovvvv),
    aug1 X.Roooovvvv_anti (ein1 L.ijklabcd L.jlikdcab Q.Roooovvvv),
    aug1 X.Roooovvvv_anti (ein1 L.ijklabcd L.jlikdacb Q.Roooovvvv),
    aug1 X.Roooovvvv_anti (ein1 L.ijklabcd L.jlikdabc Q.Roooovvvv),
    aug1 X.Roooovvvv_anti (ein1 L.ijklabcd L.kjilabcd Q.Roooovvvv),
    aug1 X.Roooovvvv_anti (ein1 L.ijklabcd L.kjilabdc Q.Roooovvvv),
    aug1 X.Roooovvvv_anti (ein1 L.ijklabcd L.kjilacbd Q.Roooovvvv),
    aug1 X.Roooovvvv_anti (ein1 L.ijklabcd L.kjilacdb Q.Roooovvvv),
    aug1 X.Roooovvvv_anti (ein1 L.ijklabcd L.kjiladcb Q.Roooovvvv),
    aug1 X.Roooovvvv_anti (ein1 L.ijklabcd L.kjiladbc Q.Roooovvvv),
    aug1 X.Roooovvvv_anti (ein1 L.ijklabcd L.kjilbacd Q.Roooovvvv),
    aug1 X.Roooovvvv_anti (ein1 L.ijklabcd L.kjilbadc Q.Roooovvvv),
    aug1 X.Roooovvvv_anti (ein1 L.ijklabcd L.kjilbcad Q.Roooovvvv),
    aug1 X.Roooovvvv_anti (ein1 L.ijklabcd L.kjilbcda Q.Roooovvvv),
    aug1 X.Roooovvvv_anti (ein1 L.ijklabcd L.kjilbdca Q.Roooovvvv),
    aug1 X.Roooovvvv_anti (ein1 L.ijklabcd L.kjilbdac Q.Roooovvvv),
    aug1 X.Roooovvvv_anti (ein1 L.ijklabcd L.kjilcbad Q.Roooovvvv),
    aug1 X.Roooovvvv_anti (ein1 L.ijklabcd L.kjilcbda Q.Roooovvvv),
    aug1 X.Roooovvvv_anti (ein1 L.ijklabcd L.kjilcabd Q.Roooovvvv),
    aug1 X.Roooovvvv_anti (ein1 L.ijklabcd L.kjilcadb Q.Roooovvvv),
    aug1 X.Roooovvvv_anti (ein1 L.ijklabcd L.kjilcdab Q.Roooovvvv),
    aug1 X.Roooovvvv_anti (ein1 L.ijklabcd L.kjilcdba Q.Roooovvvv),
    aug1 X.Roooovvvv_anti (ein1 L.ijklabcd L.kjildbca Q.Roooovvvv),
    aug1 X.Roooovvvv_anti (ein1 L.ijklabcd L.kjildbac Q.Roooovvvv),
    aug1 X.Roooovvvv_anti (ein1 L.ijklabcd L.kjildcba Q.Roooovvvv),
    aug1 X.Roooovvvv_anti (ein1 L.ijklabcd L.kjildcab Q.Roooovvvv),
    aug1 X.Roooovvvv_anti (ein1 L.ijklabcd L.kjildacb Q.Roooovvvv),
    aug1 X.Roooovvvv_anti (ein1 L.ijklabcd L.kjildabc Q.Roooovvvv),
    aug1 X.Roooovvvv_anti (ein1 L.ijklabcd L.kjliabcd Q.Roooovvvv),
    aug1 X.Roooovvvv_anti (ein1 L.ijklabcd L.kjliabdc Q.Roooovvvv),
    aug1 X.Roooovvvv_anti (ein1 L.ijklabcd L.kjliacbd Q.Roooovvvv),
    aug1 X.Roooovvvv_anti (ein1 L.ijklabcd L.kjliacdb Q.Roooovvvv),
    aug1 X.Roooovvvv_anti (ein1 L.ijklabcd L.kjliadcb Q.Roooovvvv),
    aug1 X.Roooovvvv_anti (ein1 L.ijklabcd L.kjliadbc Q.Roooovvvv),
    aug1 X.Roooovvvv_anti (ein1 L.ijklabcd L.kjlibacd Q.Roooovvvv),
    aug1 X.Roooovvvv_anti (ein1 L.ijklabcd L.kjlibadc Q.Roooovvvv),
    aug1 X.Roooovvvv_anti (ein1 L.ijklabcd L.kjlibcad Q.Roooovvvv),
    aug1 X.Roooovvvv_anti (ein1 L.ijklabcd L.kjlibcda Q.Roooovvvv),
    aug1 X.Roooovvvv_anti (ein1 L.ijklabcd L.kjlibdca Q.Roooovvvv),
    aug1 X.Roooovvvv_anti (ein1 L.ijklabcd L.kjlibdac Q.Roooovvvv),
    aug1 X.Roooovvvv_anti (ein1 L.ijklabcd L.kjlicbad Q.Roooovvvv),
    aug1 X.Roooovvvv_anti (ein1 L.ijklabcd L.kjlicbda Q.Roooovvvv),
    aug1 X.Roooovvvv_anti (ein1 L.ijklabcd L.kjlicabd Q.Roooovvvv),
    aug1 X.Roooovvvv_anti (ein1 L.ijklabcd L.kjlicadb Q.Roooovvvv),
    aug1 X.Roooovvvv_anti (ein1 L.ijklabcd L.kjlicdab Q.Roooovvvv),
    aug1 X.Roooovvvv_anti (ein1 L.ijklabcd L.kjlicdba Q.Roooovvvv),
    aug1 X.Roooovvvv_anti (ein1 L.ijklabcd L.kjlidbca Q.Roooovvvv),
    aug1 X.Roooovvvv_anti (ein1 L.ijklabcd L.kjlidbac Q.Roooovvvv),
    aug1 X.Roooovvvv_anti (ein1 L.ijklabcd L.kjlidcba Q.Roooovvvv),
    aug1 X.Roooovvvv_anti (ein1 L.ijklabcd L.kjlidcab Q.Roooovvvv),
    aug1 X.Roooovvvv_anti (ein1 L.ijklabcd L.kjlidacb Q.Roooovvvv),
    aug1 X.Roooovvvv_anti (ein1 L.ijklabcd L.kjlidabc Q.Roooovvvv),
    aug1 X.Roooovvvv_anti (ein1 L.ijklabcd L.kijlabcd Q.Roooovvvv),
    aug1 X.Roooovvvv_anti (ein1 L.ijklabcd L.kijlabdc Q.Roooovvvv),
    aug1 X.Roooovvvv_anti (ein1 L.ijklabcd L.kijlacbd Q.Roooovvvv),
    aug1 X.Roooovvvv_anti (ein1 L.ijklabcd L.kijlacdb Q.Roooovvvv),
    aug1 X.Roooovvvv_anti (ein1 L.ijklabcd L.kijladcb Q.Roooovvvv),
    aug1 X.Roooovvvv_anti (ein1 L.ijklabcd L.kijladbc Q.Roooovvvv),
    aug1 X.Roooovvvv_anti (ein1 L.ijklabcd L.kijlbacd Q.Roooovvvv),
    aug1 X.Roooovvvv_anti (ein1 L.ijklabcd L.kijlbadc Q.Roooovvvv),
    aug1 X.Roooovvvv_anti (ein1 L.ijklabcd L.kijlbcad Q.Roooovvvv),
    aug1 X.Roooovvvv_anti (ein1 L.ijklabcd L.kijlbcda Q.Roooovvvv),
    aug1 X.Roooovvvv_anti (ein1 L.ijklabcd L.kijlbdca Q.Roooovvvv),
    aug1 X.Roooovvvv_anti (ein1 L.ijklabcd L.kijlbdac Q.Roooovvvv),
    aug1 X.Roooovvvv_anti (ein1 L.ijklabcd L.kijlcbad Q.Roooovvvv),
    aug1 X.Roooovvvv_anti (ein1 L.ijklabcd L.kijlcbda Q.Roooovvvv),
    aug1 X.Roooovvvv_anti (ein1 L.ijklabcd L.kijlcabd Q.Roooovvvv),
    aug1 X.Roooovvvv_anti (ein1 L.ijklabcd L.kijlcadb Q.Roooovvvv),
    aug1 X.Roooovvvv_anti (ein1 L.ijklabcd L.kijlcdab Q.Roooovvvv),
    aug1 X.Roooovvvv_anti (ein1 L.ijklabcd L.kijlcdba Q.Roooovvvv),
    aug1 X.Roooovvvv_anti (ein1 L.ijklabcd L.kijldbca Q.Roooovvvv),
    aug1 X.Roooovvvv_anti (ein1 L.ijklabcd L.kijldbac Q.Roooovvvv),
    aug1 X.Roooovvvv_anti (ein1 L.ijklabcd L.kijldcba Q.Roooovvvv),
    aug1 X.Roooovvvv_anti (ein1 L.ijklabcd L.kijldcab Q.Roooovvvv),
    aug1 X.Roooovvvv_anti (ein1 L.ijklabcd L.kijldacb Q.Roooovvvv),
    aug1 X.Roooovvvv_anti (ein1 L.ijklabcd L.kijldabc Q.Roooovvvv),
    aug1 X.Roooovvvv_anti (ein1 L.ijklabcd L.kiljabcd Q.Roooovvvv),
    aug1 X.Roooovvvv_anti (ein1 L.ijklabcd L.kiljabdc Q.Roooovvvv),
    aug1 X.Roooovvvv_anti (ein1 L.ijklabcd L.kiljacbd Q.Roooovvvv),
    aug1 X.Roooovvvv_anti (ein1 L.ijklabcd L.kiljacdb Q.Roooovvvv),
    aug1 X.Roooovvvv_anti (ein1 L.ijklabcd L.kiljadcb Q.Roooovvvv),
    aug1 X.Roooovvvv_anti (ein1 L.ijklabcd L.kiljadbc Q.Roooovvvv),
    aug1 X.Roooovvvv_anti (ein1 L.ijklabcd L.kiljbacd Q.Roooovvvv),
    aug1 X.Roooovvvv_anti (ein1 L.ijklabcd L.kiljbadc Q.Roooovvvv),
    aug1 X.Roooovvvv_anti (ein1 L.ijklabcd L.kiljbcad Q.Roooovvvv),
    aug1 X.Roooovvvv_anti (ein1 L.ijklabcd L.kiljbcda Q.Roooovvvv),
    aug1 X.Roooovvvv_anti (ein1 L.ijklabcd L.kiljbdca Q.Roooovvvv),
    aug1 X.Roooovvvv_anti (ein1 L.ijklabcd L.kiljbdac Q.Roooovvvv),
    aug1 X.Roooovvvv_anti (ein1 L.ijklabcd L.kiljcbad Q.Roooovvvv),
    aug1 X.Roooovvvv_anti (ein1 L.ijklabcd L.kiljcbda Q.Roooovvvv),
    aug1 X.Roooovvvv_anti (ein1 L.ijklabcd L.kiljcabd Q.Roooovvvv),
    aug1 X.Roooovvvv_anti (ein1 L.ijklabcd L.kiljcadb Q.Roooovvvv),
    aug1 X.Roooovvvv_anti (ein1 L.ijklabcd L.kiljcdab Q.Roooovvvv),
    aug1 X.Roooovvvv_anti (ein1 L.ijklabcd L.kiljcdba Q.Roooovvvv),
    aug1 X.Roooovvvv_anti (ein1 L.ijklabcd L.kiljdbca Q.Roooovvvv),
    aug1 X.Roooovvvv_anti (ein1 L.ijklabcd L.kiljdbac Q.Roooovvvv),
    aug1 X.Roooovvvv_anti (ein1 L.ijklabcd L.kiljdcba Q.Roooovvvv),
    aug1 X.Roooovvvv_anti (ein1 L.ijklabcd L.kiljdcab Q.Roooovvvv),
    aug1 X.Roooovvvv_anti (ein1 L.ijklabcd L.kiljdacb Q.Roooovvvv),
    aug1 X.Roooovvvv_anti (ein1 L.ijklabcd L.kiljdabc Q.Roooovvvv),
    aug1 X.Roooovvvv_anti (ein1 L.ijklabcd L.klijabcd Q.Roooovvvv),
    aug1 X.Roooovvvv_anti (ein1 L.ijklabcd L.klijabdc Q.Roooovvvv),
    aug1 X.Roooovvvv_anti (ein1 L.ijklabcd L.klijacbd Q.Roooovvvv),
    aug1 X.Roooovvvv_anti (ein1 L.ijklabcd L.klijacdb Q.Roooovvvv),
    aug1 X.Roooovvvv_anti (ein1 L.ijklabcd L.klijadcb Q.Roooovvvv),
    aug1 X.Roooovvvv_anti (ein1 L.ijklabcd L.klijadbc Q.Roooovvvv),
    aug1 X.Roooovvvv_anti (ein1 L.ijklabcd L.klijbacd Q.Roooovvvv),
    aug1 X.Roooovvvv_anti (ein1 L.ijklabcd L.klijbadc Q.Roooovvvv),
    aug1 X.Roooovvvv_anti (ein1 L.ijklabcd L.klijbcad Q.Roooovvvv),
    aug1 X.Roooovvvv_anti (ein1 L.ijklabcd L.klijbcda Q.Roooovvvv),
    aug1 X.Roooovvvv_anti (ein1 L.ijklabcd L.klijbdca Q.Roooovvvv),
    aug1 X.Roooovvvv_anti (ein1 L.ijklabcd L.klijbdac Q.Roooovvvv),
    aug1 X.Roooovvvv_anti (ein1 L.ijklabcd L.klijcbad Q.Roooovvvv),
    aug1 X.Roooovvvv_anti (ein1 L.ijklabcd L.klijcbda Q.Roooovvvv),
    aug1 X.Roooovvvv_anti (ein1 L.ijklabcd L.klijcabd Q.Roooovvvv),
    aug1 X.Roooovvvv_anti (ein1 L.ijklabcd L.klijcadb Q.Roooovvvv),
    aug1 X.Roooovvvv_anti (ein1 L.ijklabcd L.klijcdab Q.Roooovvvv),
    aug1 X.Roooovvvv_anti (ein1 L.ijklabcd L.klijcdba Q.Roooovvvv),
    aug1 X.Roooovvvv_anti (ein1 L.ijklabcd L.klijdbca Q.Roooovvvv),
    aug1 X.Roooovvvv_anti (ein1 L.ijklabcd L.klijdbac Q.Roooovvvv),
    aug1 X.Roooovvvv_anti (ein1 L.ijklabcd L.klijdcba Q.Roooovvvv),
    aug1 X.Roooovvvv_anti (ein1 L.ijklabcd L.klijdcab Q.Roooovvvv),
    aug1 X.Roooovvvv_anti (ein1 L.ijklabcd L.klijdacb Q.Roooovvvv),
    aug1 X.Roooovvvv_anti (ein1 L.ijklabcd L.klijdabc Q.Roooovvvv),
    aug1 X.Roooovvvv_anti (ein1 L.ijklabcd L.kljiabcd Q.Roooovvvv),
    aug1 X.Roooovvvv_anti (ein1 L.ijklabcd L.kljiabdc Q.Roooovvvv),
    aug1 X.Roooovvvv_anti (ein1 L.ijklabcd L.kljiacbd Q.Roooovvvv),
    aug1 X.Roooovvvv_anti (ein1 L.ijklabcd L.kljiacdb Q.Roooovvvv),
    aug1 X.Roooovvvv_anti (ein1 L.ijklabcd L.kljiadcb Q.Roooovvvv),
    aug1 X.Roooovvvv_anti (ein1 L.ijklabcd L.kljiadbc Q.Roooovvvv),
    aug1 X.Roooovvvv_anti (ein1 L.ijklabcd L.kljibacd Q.Roooovvvv),
    aug1 X.Roooovvvv_anti (ein1 L.ijklabcd L.kljibadc Q.Roooovvvv),
    aug1 X.Roooovvvv_anti (ein1 L.ijklabcd L.kljibcad Q.Roooovvvv),
    aug1 X.Roooovvvv_anti (ein1 L.ijklabcd L.kljibcda Q.Roooovvvv),
    aug1 X.Roooovvvv_anti (ein1 L.ijklabcd L.kljibdca Q.Roooovvvv),
    aug1 X.Roooovvvv_anti (ein1 L.ijklabcd L.kljibdac Q.Roooovvvv),
    aug1 X.Roooovvvv_anti (ein1 L.ijklabcd L.kljicbad Q.Roooovvvv),
    aug1 X.Roooovvvv_anti (ein1 L.ijklabcd L.kljicbda Q.Roooovvvv),
    aug1 X.Roooovvvv_anti (ein1 L.ijklabcd L.kljicabd Q.Roooovvvv),
    aug1 X.Roooovvvv_anti (ein1 L.ijklabcd L.kljicadb Q.Roooovvvv),
    aug1 X.Roooovvvv_anti (ein1 L.ijklabcd L.kljicdab Q.Roooovvvv),
    aug1 X.Roooovvvv_anti (ein1 L.ijklabcd L.kljicdba Q.Roooovvvv),
    aug1 X.Roooovvvv_anti (ein1 L.ijklabcd L.kljidbca Q.Roooovvvv),
    aug1 X.Roooovvvv_anti (ein1 L.ijklabcd L.kljidbac Q.Roooovvvv),
    aug1 X.Roooovvvv_anti (ein1 L.ijklabcd L.kljidcba Q.Roooovvvv),
    aug1 X.Roooovvvv_anti (ein1 L.ijklabcd L.kljidcab Q.Roooovvvv),
    aug1 X.Roooovvvv_anti (ein1 L.ijklabcd L.kljidacb Q.Roooovvvv),
    aug1 X.Roooovvvv_anti (ein1 L.ijklabcd L.kljidabc Q.Roooovvvv),
    aug1 X.Roooovvvv_anti (ein1 L.ijklabcd L.ljkiabcd Q.Roooovvvv),
    aug1 X.Roooovvvv_anti (ein1 L.ijklabcd L.ljkiabdc Q.Roooovvvv),
    aug1 X.Roooovvvv_anti (ein1 L.ijklabcd L.ljkiacbd Q.Roooovvvv),
    aug1 X.Roooovvvv_anti (ein1 L.ijklabcd L.ljkiacdb Q.Roooovvvv),
    aug1 X.Roooovvvv_anti (ein1 L.ijklabcd L.ljkiadcb Q.Roooovvvv),
    aug1 X.Roooovvvv_anti (ein1 L.ijklabcd L.ljkiadbc Q.Roooovvvv),
    aug1 X.Roooovvvv_anti (ein1 L.ijklabcd L.ljkibacd Q.Roooovvvv),
    aug1 X.Roooovvvv_anti (ein1 L.ijklabcd L.ljkibadc Q.Roooovvvv),
    aug1 X.Roooovvvv_anti (ein1 L.ijklabcd L.ljkibcad Q.Roooovvvv),
    aug1 X.Roooovvvv_anti (ein1 L.ijklabcd L.ljkibcda Q.Roooovvvv),
    aug1 X.Roooovvvv_anti (ein1 L.ijklabcd L.ljkibdca Q.Roooovvvv),
    aug1 X.Roooovvvv_anti (ein1 L.ijklabcd L.ljkibdac Q.Roooovvvv),
    aug1 X.Roooovvvv_anti (ein1 L.ijklabcd L.ljkicbad Q.Roooovvvv),
    aug1 X.Roooovvvv_anti (ein1 L.ijklabcd L.ljkicbda Q.Roooovvvv),
    aug1 X.Roooovvvv_anti (ein1 L.ijklabcd L.ljkicabd Q.Roooovvvv),
    aug1 X.Roooovvvv_anti (ein1 L.ijklabcd L.ljkicadb Q.Roooovvvv),
    aug1 X.Roooovvvv_anti (ein1 L.ijklabcd L.ljkicdab Q.Roooovvvv),
    aug1 X.Roooovvvv_anti (ein1 L.ijklabcd L.ljkicdba Q.Roooovvvv),
    aug1 X.Roooovvvv_anti (ein1 L.ijklabcd L.ljkidbca Q.Roooovvvv),
    aug1 X.Roooovvvv_anti (ein1 L.ijklabcd L.ljkidbac Q.Roooovvvv),
    aug1 X.Roooovvvv_anti (ein1 L.ijklabcd L.ljkidcba Q.Roooovvvv),
    aug1 X.Roooovvvv_anti (ein1 L.ijklabcd L.ljkidcab Q.Roooovvvv),
    aug1 X.Roooovvvv_anti (ein1 L.ijklabcd L.ljkidacb Q.Roooovvvv),
    aug1 X.Roooovvvv_anti (ein1 L.ijklabcd L.ljkidabc Q.Roooovvvv),
    aug1 X.Roooovvvv_anti (ein1 L.ijklabcd L.ljikabcd Q.Roooovvvv),
    aug1 X.Roooovvvv_anti (ein1 L.ijklabcd L.ljikabdc Q.Roooovvvv),
    aug1 X.Roooovvvv_anti (ein1 L.ijklabcd L.ljikacbd Q.Roooovvvv),
    aug1 X.Roooovvvv_anti (ein1 L.ijklabcd L.ljikacdb Q.Roooovvvv),
    aug1 X.Roooovvvv_anti (ein1 L.ijklabcd L.ljikadcb Q.Roooovvvv),
    aug1 X.Roooovvvv_anti (ein1 L.ijklabcd L.ljikadbc Q.Roooovvvv),
    aug1 X.Roooovvvv_anti (ein1 L.ijklabcd L.ljikbacd Q.Roooovvvv),
    aug1 X.Roooovvvv_anti (ein1 L.ijklabcd L.ljikbadc Q.Roooovvvv),
    aug1 X.Roooovvvv_anti (ein1 L.ijklabcd L.ljikbcad Q.Roooovvvv),
    aug1 X.Roooovvvv_anti (ein1 L.ijklabcd L.ljikbcda Q.Roooovvvv),
    aug1 X.Roooovvvv_anti (ein1 L.ijklabcd L.ljikbdca Q.Roooovvvv),
    aug1 X.Roooovvvv_anti (ein1 L.ijklabcd L.ljikbdac Q.Roooovvvv),
    aug1 X.Roooovvvv_anti (ein1 L.ijklabcd L.ljikcbad Q.Roooovvvv),
    aug1 X.Roooovvvv_anti (ein1 L.ijklabcd L.ljikcbda Q.Roooovvvv),
    aug1 X.Roooovvvv_anti (ein1 L.ijklabcd L.ljikcabd Q.Roooovvvv),
    aug1 X.Roooovvvv_anti (ein1 L.ijklabcd L.ljikcadb Q.Roooovvvv),
    aug1 X.Roooovvvv_anti (ein1 L.ijklabcd L.ljikcdab Q.Roooovvvv),
    aug1 X.Roooovvvv_anti (ein1 L.ijklabcd L.ljikcdba Q.Roooovvvv),
    aug1 X.Roooovvvv_anti (ein1 L.ijklabcd L.ljikdbca Q.Roooovvvv),
    aug1 X.Roooovvvv_anti (ein1 L.ijklabcd L.ljikdbac Q.Roooovvvv),
    aug1 X.Roooovvvv_anti (ein1 L.ijklabcd L.ljikdcba Q.Roooovvvv),
    aug1 X.Roooovvvv_anti (ein1 L.ijklabcd L.ljikdcab Q.Roooovvvv),
    aug1 X.Roooovvvv_anti (ein1 L.ijklabcd L.ljikdacb Q.Roooovvvv),
    aug1 X.Roooovvvv_anti (ein1 L.ijklabcd L.ljikdabc Q.Roooovvvv),
    aug1 X.Roooovvvv_anti (ein1 L.ijklabcd L.lkjiabcd Q.Roooovvvv),
    aug1 X.Roooovvvv_anti (ein1 L.ijklabcd L.lkjiabdc Q.Roooovvvv),
    aug1 X.Roooovvvv_anti (ein1 L.ijklabcd L.lkjiacbd Q.Roooovvvv),
    aug1 X.Roooovvvv_anti (ein1 L.ijklabcd L.lkjiacdb Q.Roooovvvv),
    aug1 X.Roooovvvv_anti (ein1 L.ijklabcd L.lkjiadcb Q.Roooovvvv),
    aug1 X.Roooovvvv_anti (ein1 L.ijklabcd L.lkjiadbc Q.Roooovvvv),
    aug1 X.Roooovvvv_anti (ein1 L.ijklabcd L.lkjibacd Q.Roooovvvv),
    aug1 X.Roooovvvv_anti (ein1 L.ijklabcd L.lkjibadc Q.Roooovvvv),
    aug1 X.Roooovvvv_anti (ein1 L.ijklabcd L.lkjibcad Q.Roooovvvv),
    aug1 X.Roooovvvv_anti (ein1 L.ijklabcd L.lkjibcda Q.Roooovvvv),
    aug1 X.Roooovvvv_anti (ein1 L.ijklabcd L.lkjibdca Q.Roooovvvv),
    aug1 X.Roooovvvv_anti (ein1 L.ijklabcd L.lkjibdac Q.Roooovvvv),
    aug1 X.Roooovvvv_anti (ein1 L.ijklabcd L.lkjicbad Q.Roooovvvv),
    aug1 X.Roooovvvv_anti (ein1 L.ijklabcd L.lkjicbda Q.Roooovvvv),
    aug1 X.Roooovvvv_anti (ein1 L.ijklabcd L.lkjicabd Q.Roooovvvv),
    aug1 X.Roooovvvv_anti (ein1 L.ijklabcd L.lkjicadb Q.Roooovvvv),
    aug1 X.Roooovvvv_anti (ein1 L.ijklabcd L.lkjicdab Q.Roooovvvv),
    aug1 X.Roooovvvv_anti (ein1 L.ijklabcd L.lkjicdba Q.Roooovvvv),
    aug1 X.Roooovvvv_anti (ein1 L.ijklabcd L.lkjidbca Q.Roooovvvv),
    aug1 X.Roooovvvv_anti (ein1 L.ijklabcd L.lkjidbac Q.Roooovvvv),
    aug1 X.Roooovvvv_anti (ein1 L.ijklabcd L.lkjidcba Q.Roooovvvv),
    aug1 X.Roooovvvv_anti (ein1 L.ijklabcd L.lkjidcab Q.Roooovvvv),
    aug1 X.Roooovvvv_anti (ein1 L.ijklabcd L.lkjidacb Q.Roooovvvv),
    aug1 X.Roooovvvv_anti (ein1 L.ijklabcd L.lkjidabc Q.Roooovvvv),
    aug1 X.Roooovvvv_anti (ein1 L.ijklabcd L.lkijabcd Q.Roooovvvv),
    aug1 X.Roooovvvv_anti (ein1 L.ijklabcd L.lkijabdc Q.Roooovvvv),
    aug1 X.Roooovvvv_anti (ein1 L.ijklabcd L.lkijacbd Q.Roooovvvv),
    aug1 X.Roooovvvv_anti (ein1 L.ijklabcd L.lkijacdb Q.Roooovvvv),
    aug1 X.Roooovvvv_anti (ein1 L.ijklabcd L.lkijadcb Q.Roooovvvv),
    aug1 X.Roooovvvv_anti (ein1 L.ijklabcd L.lkijadbc Q.Roooovvvv),
    aug1 X.Roooovvvv_anti (ein1 L.ijklabcd L.lkijbacd Q.Roooovvvv),
    aug1 X.Roooovvvv_anti (ein1 L.ijklabcd L.lkijbadc Q.Roooovvvv),
    aug1 X.Roooovvvv_anti (ein1 L.ijklabcd L.lkijbcad Q.Roooovvvv),
    aug1 X.Roooovvvv_anti (ein1 L.ijklabcd L.lkijbcda Q.Roooovvvv),
    aug1 X.Roooovvvv_anti (ein1 L.ijklabcd L.lkijbdca Q.Roooovvvv),
    aug1 X.Roooovvvv_anti (ein1 L.ijklabcd L.lkijbdac Q.Roooovvvv),
    aug1 X.Roooovvvv_anti (ein1 L.ijklabcd L.lkijcbad Q.Roooovvvv),
    aug1 X.Roooovvvv_anti (ein1 L.ijklabcd L.lkijcbda Q.Roooovvvv),
    aug1 X.Roooovvvv_anti (ein1 L.ijklabcd L.lkijcabd Q.Roooovvvv),
    aug1 X.Roooovvvv_anti (ein1 L.ijklabcd L.lkijcadb Q.Roooovvvv),
    aug1 X.Roooovvvv_anti (ein1 L.ijklabcd L.lkijcdab Q.Roooovvvv),
    aug1 X.Roooovvvv_anti (ein1 L.ijklabcd L.lkijcdba Q.Roooovvvv),
    aug1 X.Roooovvvv_anti (ein1 L.ijklabcd L.lkijdbca Q.Roooovvvv),
    aug1 X.Roooovvvv_anti (ein1 L.ijklabcd L.lkijdbac Q.Roooovvvv),
    aug1 X.Roooovvvv_anti (ein1 L.ijklabcd L.lkijdcba Q.Roooovvvv),
    aug1 X.Roooovvvv_anti (ein1 L.ijklabcd L.lkijdcab Q.Roooovvvv),
    aug1 X.Roooovvvv_anti (ein1 L.ijklabcd L.lkijdacb Q.Roooovvvv),
    aug1 X.Roooovvvv_anti (ein1 L.ijklabcd L.lkijdabc Q.Roooovvvv),
    aug1 X.Roooovvvv_anti (ein1 L.ijklabcd L.likjabcd Q.Roooovvvv),
    aug1 X.Roooovvvv_anti (ein1 L.ijklabcd L.likjabdc Q.Roooovvvv),
    aug1 X.Roooovvvv_anti (ein1 L.ijklabcd L.likjacbd Q.Roooovvvv),
    aug1 X.Roooovvvv_anti (ein1 L.ijklabcd L.likjacdb Q.Roooovvvv),
    aug1 X.Roooovvvv_anti (ein1 L.ijklabcd L.likjadcb Q.Roooovvvv),
    aug1 X.Roooovvvv_anti (ein1 L.ijklabcd L.likjadbc Q.Roooovvvv),
    aug1 X.Roooovvvv_anti (ein1 L.ijklabcd L.likjbacd Q.Roooovvvv),
    aug1 X.Roooovvvv_anti (ein1 L.ijklabcd L.likjbadc Q.Roooovvvv),
    aug1 X.Roooovvvv_anti (ein1 L.ijklabcd L.likjbcad Q.Roooovvvv),
    aug1 X.Roooovvvv_anti (ein1 L.ijklabcd L.likjbcda Q.Roooovvvv),
    aug1 X.Roooovvvv_anti (ein1 L.ijklabcd L.likjbdca Q.Roooovvvv),
    aug1 X.Roooovvvv_anti (ein1 L.ijklabcd L.likjbdac Q.Roooovvvv),
    aug1 X.Roooovvvv_anti (ein1 L.ijklabcd L.likjcbad Q.Roooovvvv),
    aug1 X.Roooovvvv_anti (ein1 L.ijklabcd L.likjcbda Q.Roooovvvv),
    aug1 X.Roooovvvv_anti (ein1 L.ijklabcd L.likjcabd Q.Roooovvvv),
    aug1 X.Roooovvvv_anti (ein1 L.ijklabcd L.likjcadb Q.Roooovvvv),
    aug1 X.Roooovvvv_anti (ein1 L.ijklabcd L.likjcdab Q.Roooovvvv),
    aug1 X.Roooovvvv_anti (ein1 L.ijklabcd L.likjcdba Q.Roooovvvv),
    aug1 X.Roooovvvv_anti (ein1 L.ijklabcd L.likjdbca Q.Roooovvvv),
    aug1 X.Roooovvvv_anti (ein1 L.ijklabcd L.likjdbac Q.Roooovvvv),
    aug1 X.Roooovvvv_anti (ein1 L.ijklabcd L.likjdcba Q.Roooovvvv),
    aug1 X.Roooovvvv_anti (ein1 L.ijklabcd L.likjdcab Q.Roooovvvv),
    aug1 X.Roooovvvv_anti (ein1 L.ijklabcd L.likjdacb Q.Roooovvvv),
    aug1 X.Roooovvvv_anti (ein1 L.ijklabcd L.likjdabc Q.Roooovvvv),
    aug1 X.Roooovvvv_anti (ein1 L.ijklabcd L.lijkabcd Q.Roooovvvv),
    aug1 X.Roooovvvv_anti (ein1 L.ijklabcd L.lijkabdc Q.Roooovvvv),
    aug1 X.Roooovvvv_anti (ein1 L.ijklabcd L.lijkacbd Q.Roooovvvv),
    aug1 X.Roooovvvv_anti (ein1 L.ijklabcd L.lijkacdb Q.Roooovvvv),
    aug1 X.Roooovvvv_anti (ein1 L.ijklabcd L.lijkadcb Q.Roooovvvv),
    aug1 X.Roooovvvv_anti (ein1 L.ijklabcd L.lijkadbc Q.Roooovvvv),
    aug1 X.Roooovvvv_anti (ein1 L.ijklabcd L.lijkbacd Q.Roooovvvv),
    aug1 X.Roooovvvv_anti (ein1 L.ijklabcd L.lijkbadc Q.Roooovvvv),
    aug1 X.Roooovvvv_anti (ein1 L.ijklabcd L.lijkbcad Q.Roooovvvv),
    aug1 X.Roooovvvv_anti (ein1 L.ijklabcd L.lijkbcda Q.Roooovvvv),
    aug1 X.Roooovvvv_anti (ein1 L.ijklabcd L.lijkbdca Q.Roooovvvv),
    aug1 X.Roooovvvv_anti (ein1 L.ijklabcd L.lijkbdac Q.Roooovvvv),
    aug1 X.Roooovvvv_anti (ein1 L.ijklabcd L.lijkcbad Q.Roooovvvv),
    aug1 X.Roooovvvv_anti (ein1 L.ijklabcd L.lijkcbda Q.Roooovvvv),
    aug1 X.Roooovvvv_anti (ein1 L.ijklabcd L.lijkcabd Q.Roooovvvv),
    aug1 X.Roooovvvv_anti (ein1 L.ijklabcd L.lijkcadb Q.Roooovvvv),
    aug1 X.Roooovvvv_anti (ein1 L.ijklabcd L.lijkcdab Q.Roooovvvv),
    aug1 X.Roooovvvv_anti (ein1 L.ijklabcd L.lijkcdba Q.Roooovvvv),
    aug1 X.Roooovvvv_anti (ein1 L.ijklabcd L.lijkdbca Q.Roooovvvv),
    aug1 X.Roooovvvv_anti (ein1 L.ijklabcd L.lijkdbac Q.Roooovvvv),
    aug1 X.Roooovvvv_anti (ein1 L.ijklabcd L.lijkdcba Q.Roooovvvv),
    aug1 X.Roooovvvv_anti (ein1 L.ijklabcd L.lijkdcab Q.Roooovvvv),
    aug1 X.Roooovvvv_anti (ein1 L.ijklabcd L.lijkdacb Q.Roooovvvv),
    aug1 X.Roooovvvv_anti (ein1 L.ijklabcd L.lijkdabc Q.Roooovvvv)]
  ret := [Q.Roooovvvv_anti]

end Verif.Shape.Prog
