import Verif.Shape.Names

/-!
# Shape programs of modify_T2energy_pertQf.py (generated by tools/shapegen.py)

Every statement of the functions with the subscripts and operands as written; see `Verif.Shape.Core`.
-/

set_option maxRecDepth 100000

namespace Verif.Shape.Prog

open Verif.Shape

/-- `modify_T2energy_pertQf.py` 4-2778: `energy_pertQf`; 920 einsum calls. -/
def modify_T2energy_pertQf_energy_pertQf : Fn where
  params := [X.g_aaaa, X.g_bbbb, X.g_abab, X.l2_aaaa, X.l2_bbbb, X.l2_abab, X.t2_aaaa, X.t2_bbbb, X.t2_abab]
  body := [
    set1 X.g_aaaa (.arg Q.g_aaaa),
    set1 X.g_bbbb (.arg Q.g_bbbb),
    set1 X.g_abab (.arg Q.g_abab),
    set1 X.l2_aaaa (.arg Q.l2_aaaa),
    set1 X.l2_bbbb (.arg Q.l2_bbbb),
    set1 X.l2_abab (.arg Q.l2_abab),
    set1 X.t2_aaaa (.arg Q.t2_aaaa),
    set1 X.t2_bbbb (.arg Q.t2_bbbb),
    set1 X.t2_abab (.arg Q.t2_abab),
    set1 X.energy (ein5 L.nmkl L.ijba L.kldc L.dcjm L.bain [] Q.g_aaaa_oooo Q.l2_aaaa Q.l2_aaaa Q.t2_aaaa Q.t2_aaaa),
    aug1 X.energy (ein5 L.nmkl L.ijba L.kldc L.dcjm L.bain [] Q.g_abab_oooo Q.l2_aaaa Q.l2_abab Q.t2_abab Q.t2_aaaa),
    aug1 X.energy (ein5 L.nmkl L.ijba L.klcd L.cdjm L.bain [] Q.g_abab_oooo Q.l2_aaaa Q.l2_abab Q.t2_abab Q.t2_aaaa),
    aug1 X.energy (ein5 L.nmlk L.ijba L.lkdc L.dcjm L.bain [] Q.g_abab_oooo Q.l2_aaaa Q.l2_abab Q.t2_abab Q.t2_aaaa),
    aug1 X.energy (ein5 L.nmlk L.ijba L.lkcd L.cdjm L.bain [] Q.g_abab_oooo Q.l2_aaaa Q.l2_abab Q.t2_abab Q.t2_aaaa),
    aug1 X.energy (ein5 L.mnkl L.ijba L.kldc L.dcmj L.bain [] Q.g_abab_oooo Q.l2_abab Q.l2_abab Q.t2_abab Q.t2_abab),
    aug1 X.energy (ein5 L.mnkl L.ijba L.klcd L.cdmj L.bain [] Q.g_abab_oooo Q.l2_abab Q.l2_abab Q.t2_abab Q.t2_abab),
    aug1 X.energy (ein5 L.mnlk L.ijba L.lkdc L.dcmj L.bain [] Q.g_abab_oooo Q.l2_abab Q.l2_abab Q.t2_abab Q.t2_abab),
    aug1 X.energy (ein5 L.mnlk L.ijba L.lkcd L.cdmj L.bain [] Q.g_abab_oooo Q.l2_abab Q.l2_abab Q.t2_abab Q.t2_abab),
    aug1 X.energy (ein5 L.nmkl L.ijba L.kldc L.dcjm L.bain [] Q.g_bbbb_oooo Q.l2_abab Q.l2_bbbb Q.t2_bbbb Q.t2_abab),
    aug1 X.energy (ein5 L.mnkl L.ijab L.kldc L.dcmj L.abin [] Q.g_abab_oooo Q.l2_abab Q.l2_abab Q.t2_abab Q.t2_abab),
    aug1 X.energy (ein5 L.mnkl L.ijab L.klcd L.cdmj L.abin [] Q.g_abab_oooo Q.l2_abab Q.l2_abab Q.t2_abab Q.t2_abab),
    aug1 X.energy (ein5 L.mnlk L.ijab L.lkdc L.dcmj L.abin [] Q.g_abab_oooo Q.l2_abab Q.l2_abab Q.t2_abab Q.t2_abab),
    aug1 X.energy (ein5 L.mnlk L.ijab L.lkcd L.cdmj L.abin [] Q.g_abab_oooo Q.l2_abab Q.l2_abab Q.t2_abab Q.t2_abab),
    aug1 X.energy (ein5 L.nmkl L.ijab L.kldc L.dcjm L.abin [] Q.g_bbbb_oooo Q.l2_abab Q.l2_bbbb Q.t2_bbbb Q.t2_abab),
    aug1 X.energy (ein5 L.nmkl L.jiba L.kldc L.dcjm L.bani [] Q.g_aaaa_oooo Q.l2_abab Q.l2_aaaa Q.t2_aaaa Q.t2_abab),
    aug1 X.energy (ein5 L.nmkl L.jiba L.kldc L.dcjm L.bani [] Q.g_abab_oooo Q.l2_abab Q.l2_abab Q.t2_abab Q.t2_abab),
    aug1 X.energy (ein5 L.nmkl L.jiba L.klcd L.cdjm L.bani [] Q.g_abab_oooo Q.l2_abab Q.l2_abab Q.t2_abab Q.t2_abab),
    aug1 X.energy (ein5 L.nmlk L.jiba L.lkdc L.dcjm L.bani [] Q.g_abab_oooo Q.l2_abab Q.l2_abab Q.t2_abab Q.t2_abab),
    aug1 X.energy (ein5 L.nmlk L.jiba L.lkcd L.cdjm L.bani [] Q.g_abab_oooo Q.l2_abab Q.l2_abab Q.t2_abab Q.t2_abab),
    aug1 X.energy (ein5 L.nmkl L.jiab L.kldc L.dcjm L.abni [] Q.g_aaaa_oooo Q.l2_abab Q.l2_aaaa Q.t2_aaaa Q.t2_abab),
    aug1 X.energy (ein5 L.nmkl L.jiab L.kldc L.dcjm L.abni [] Q.g_abab_oooo Q.l2_abab Q.l2_abab Q.t2_abab Q.t2_abab),
    aug1 X.energy (ein5 L.nmkl L.jiab L.klcd L.cdjm L.abni [] Q.g_abab_oooo Q.l2_abab Q.l2_abab Q.t2_abab Q.t2_abab),
    aug1 X.energy (ein5 L.nmlk L.jiab L.lkdc L.dcjm L.abni [] Q.g_abab_oooo Q.l2_abab Q.l2_abab Q.t2_abab Q.t2_abab),
    aug1 X.energy (ein5 L.nmlk L.jiab L.lkcd L.cdjm L.abni [] Q.g_abab_oooo Q.l2_abab Q.l2_abab Q.t2_abab Q.t2_abab),
    aug1 X.energy (ein5 L.mnkl L.ijba L.kldc L.dcmj L.bain [] Q.g_abab_oooo Q.l2_bbbb Q.l2_abab Q.t2_abab Q.t2_bbbb),
    aug1 X.energy (ein5 L.mnkl L.ijba L.klcd L.cdmj L.bain [] Q.g_abab_oooo Q.l2_bbbb Q.l2_abab Q.t2_abab Q.t2_bbbb),
    aug1 X.energy (ein5 L.mnlk L.ijba L.lkdc L.dcmj L.bain [] Q.g_abab_oooo Q.l2_bbbb Q.l2_abab Q.t2_abab Q.t2_bbbb),
    aug1 X.energy (ein5 L.mnlk L.ijba L.lkcd L.cdmj L.bain [] Q.g_abab_oooo Q.l2_bbbb Q.l2_abab Q.t2_abab Q.t2_bbbb),
    aug1 X.energy (ein5 L.nmkl L.ijba L.kldc L.dcjm L.bain [] Q.g_bbbb_oooo Q.l2_bbbb Q.l2_bbbb Q.t2_bbbb Q.t2_bbbb),
    aug1 X.energy (ein5 L.nmkl L.ijba L.kldc L.dbjm L.cain [] Q.g_aaaa_oooo Q.l2_aaaa Q.l2_aaaa Q.t2_aaaa Q.t2_aaaa),
    aug1 X.energy (ein5 L.mnkl L.ijba L.kldc L.dbjm L.acin [] Q.g_abab_oooo Q.l2_aaaa Q.l2_abab Q.t2_aaaa Q.t2_abab),
    aug1 X.energy (ein5 L.nmkl L.ijba L.klcd L.bdjm L.cain [] Q.g_abab_oooo Q.l2_aaaa Q.l2_abab Q.t2_abab Q.t2_aaaa),
    aug1 X.energy (ein5 L.mnlk L.ijba L.lkdc L.dbjm L.acin [] Q.g_abab_oooo Q.l2_aaaa Q.l2_abab Q.t2_aaaa Q.t2_abab),
    aug1 X.energy (ein5 L.nmlk L.ijba L.lkcd L.bdjm L.cain [] Q.g_abab_oooo Q.l2_aaaa Q.l2_abab Q.t2_abab Q.t2_aaaa),
    aug1 X.energy (ein5 L.nmkl L.ijba L.kldc L.bdjm L.acin [] Q.g_bbbb_oooo Q.l2_aaaa Q.l2_bbbb Q.t2_abab Q.t2_abab),
    aug1 X.energy (ein5 L.mnkl L.ijba L.klcd L.bdmj L.cain [] Q.g_abab_oooo Q.l2_abab Q.l2_abab Q.t2_abab Q.t2_abab),
    aug1 X.energy (ein5 L.mnlk L.ijba L.lkcd L.bdmj L.cain [] Q.g_abab_oooo Q.l2_abab Q.l2_abab Q.t2_abab Q.t2_abab),
    aug1 X.energy (ein5 L.nmkl L.ijab L.kldc L.dbmj L.cain [] Q.g_aaaa_oooo Q.l2_abab Q.l2_aaaa Q.t2_abab Q.t2_aaaa),
    aug1 X.energy (ein5 L.mnkl L.ijab L.kldc L.dbmj L.acin [] Q.g_abab_oooo Q.l2_abab Q.l2_abab Q.t2_abab Q.t2_abab),
    aug1 X.energy (ein5 L.nmkl L.ijab L.klcd L.dbjm L.cain [] Q.g_abab_oooo Q.l2_abab Q.l2_abab Q.t2_bbbb Q.t2_aaaa),
    aug1 X.energy (ein5 L.mnlk L.ijab L.lkdc L.dbmj L.acin [] Q.g_abab_oooo Q.l2_abab Q.l2_abab Q.t2_abab Q.t2_abab),
    aug1 X.energy (ein5 L.nmlk L.ijab L.lkcd L.dbjm L.cain [] Q.g_abab_oooo Q.l2_abab Q.l2_abab Q.t2_bbbb Q.t2_aaaa),
    aug1 X.energy (ein5 L.nmkl L.ijab L.kldc L.dbjm L.acin [] Q.g_bbbb_oooo Q.l2_abab Q.l2_bbbb Q.t2_bbbb Q.t2_abab),
    aug1 X.energy (ein5 L.nmkl L.jiba L.kldc L.dbjm L.cani [] Q.g_aaaa_oooo Q.l2_abab Q.l2_aaaa Q.t2_aaaa Q.t2_abab),
    aug1 X.energy (ein5 L.mnkl L.jiba L.kldc L.dbjm L.cain [] Q.g_abab_oooo Q.l2_abab Q.l2_abab Q.t2_aaaa Q.t2_bbbb),
    aug1 X.energy (ein5 L.nmkl L.jiba L.klcd L.bdjm L.cani [] Q.g_abab_oooo Q.l2_abab Q.l2_abab Q.t2_abab Q.t2_abab),
    aug1 X.energy (ein5 L.mnlk L.jiba L.lkdc L.dbjm L.cain [] Q.g_abab_oooo Q.l2_abab Q.l2_abab Q.t2_aaaa Q.t2_bbbb),
    aug1 X.energy (ein5 L.nmlk L.jiba L.lkcd L.bdjm L.cani [] Q.g_abab_oooo Q.l2_abab Q.l2_abab Q.t2_abab Q.t2_abab),
    aug1 X.energy (ein5 L.nmkl L.jiba L.kldc L.bdjm L.cain [] Q.g_bbbb_oooo Q.l2_abab Q.l2_bbbb Q.t2_abab Q.t2_bbbb),
    aug1 X.energy (ein5 L.nmkl L.jiab L.kldc L.dbjm L.acni [] Q.g_abab_oooo Q.l2_abab Q.l2_abab Q.t2_abab Q.t2_abab),
    aug1 X.energy (ein5 L.nmlk L.jiab L.lkdc L.dbjm L.acni [] Q.g_abab_oooo Q.l2_abab Q.l2_abab Q.t2_abab Q.t2_abab),
    aug1 X.energy (ein5 L.nmkl L.ijba L.kldc L.dbmj L.cani [] Q.g_aaaa_oooo Q.l2_bbbb Q.l2_aaaa Q.t2_abab Q.t2_abab),
    aug1 X.energy (ein5 L.mnkl L.ijba L.kldc L.dbmj L.cain [] Q.g_abab_oooo Q.l2_bbbb Q.l2_abab Q.t2_abab Q.t2_bbbb),
    aug1 X.energy (ein5 L.nmkl L.ijba L.klcd L.dbjm L.cani [] Q.g_abab_oooo Q.l2_bbbb Q.l2_abab Q.t2_bbbb Q.t2_abab),
    aug1 X.energy (ein5 L.mnlk L.ijba L.lkdc L.dbmj L.cain [] Q.g_abab_oooo Q.l2_bbbb Q.l2_abab Q.t2_abab Q.t2_bbbb),
    aug1 X.energy (ein5 L.nmlk L.ijba L.lkcd L.dbjm L.cani [] Q.g_abab_oooo Q.l2_bbbb Q.l2_abab Q.t2_bbbb Q.t2_abab),
    aug1 X.energy (ein5 L.nmkl L.ijba L.kldc L.dbjm L.cain [] Q.g_bbbb_oooo Q.l2_bbbb Q.l2_bbbb Q.t2_bbbb Q.t2_bbbb),
    aug1 X.energy (ein5 L.nmjl L.ijba L.kldc L.dckm L.bain [] Q.g_aaaa_oooo Q.l2_aaaa Q.l2_aaaa Q.t2_aaaa Q.t2_aaaa),
    aug1 X.energy (ein5 L.nmjl L.ijba L.kldc L.dckm L.bain [] Q.g_abab_oooo Q.l2_aaaa Q.l2_abab Q.t2_abab Q.t2_aaaa),
    aug1 X.energy (ein5 L.nmjl L.ijba L.klcd L.cdkm L.bain [] Q.g_abab_oooo Q.l2_aaaa Q.l2_abab Q.t2_abab Q.t2_aaaa),
    aug1 X.energy (ein5 L.nmjl L.ijba L.lkdc L.dcmk L.bain [] Q.g_aaaa_oooo Q.l2_aaaa Q.l2_abab Q.t2_abab Q.t2_aaaa),
    aug1 X.energy (ein5 L.nmjl L.ijba L.lkcd L.cdmk L.bain [] Q.g_aaaa_oooo Q.l2_aaaa Q.l2_abab Q.t2_abab Q.t2_aaaa),
    aug1 X.energy (ein5 L.nmjl L.ijba L.kldc L.dckm L.bain [] Q.g_abab_oooo Q.l2_aaaa Q.l2_bbbb Q.t2_bbbb Q.t2_aaaa),
    aug1 X.energy (ein5 L.mnlj L.ijba L.kldc L.dckm L.bain [] Q.g_abab_oooo Q.l2_abab Q.l2_aaaa Q.t2_aaaa Q.t2_abab),
    aug1 X.energy (ein5 L.nmjl L.ijba L.kldc L.dckm L.bain [] Q.g_bbbb_oooo Q.l2_abab Q.l2_abab Q.t2_abab Q.t2_abab),
    aug1 X.energy (ein5 L.nmjl L.ijba L.klcd L.cdkm L.bain [] Q.g_bbbb_oooo Q.l2_abab Q.l2_abab Q.t2_abab Q.t2_abab),
    aug1 X.energy (ein5 L.mnlj L.ijba L.lkdc L.dcmk L.bain [] Q.g_abab_oooo Q.l2_abab Q.l2_abab Q.t2_abab Q.t2_abab),
    aug1 X.energy (ein5 L.mnlj L.ijba L.lkcd L.cdmk L.bain [] Q.g_abab_oooo Q.l2_abab Q.l2_abab Q.t2_abab Q.t2_abab),
    aug1 X.energy (ein5 L.nmjl L.ijba L.kldc L.dckm L.bain [] Q.g_bbbb_oooo Q.l2_abab Q.l2_bbbb Q.t2_bbbb Q.t2_abab),
    aug1 X.energy (ein5 L.mnlj L.ijab L.kldc L.dckm L.abin [] Q.g_abab_oooo Q.l2_abab Q.l2_aaaa Q.t2_aaaa Q.t2_abab),
    aug1 X.energy (ein5 L.nmjl L.ijab L.kldc L.dckm L.abin [] Q.g_bbbb_oooo Q.l2_abab Q.l2_abab Q.t2_abab Q.t2_abab),
    aug1 X.energy (ein5 L.nmjl L.ijab L.klcd L.cdkm L.abin [] Q.g_bbbb_oooo Q.l2_abab Q.l2_abab Q.t2_abab Q.t2_abab),
    aug1 X.energy (ein5 L.mnlj L.ijab L.lkdc L.dcmk L.abin [] Q.g_abab_oooo Q.l2_abab Q.l2_abab Q.t2_abab Q.t2_abab),
    aug1 X.energy (ein5 L.mnlj L.ijab L.lkcd L.cdmk L.abin [] Q.g_abab_oooo Q.l2_abab Q.l2_abab Q.t2_abab Q.t2_abab),
    aug1 X.energy (ein5 L.nmjl L.ijab L.kldc L.dckm L.abin [] Q.g_bbbb_oooo Q.l2_abab Q.l2_bbbb Q.t2_bbbb Q.t2_abab),
    aug1 X.energy (ein5 L.nmjl L.jiba L.kldc L.dckm L.bani [] Q.g_aaaa_oooo Q.l2_abab Q.l2_aaaa Q.t2_aaaa Q.t2_abab),
    aug1 X.energy (ein5 L.nmjl L.jiba L.kldc L.dckm L.bani [] Q.g_abab_oooo Q.l2_abab Q.l2_abab Q.t2_abab Q.t2_abab),
    aug1 X.energy (ein5 L.nmjl L.jiba L.klcd L.cdkm L.bani [] Q.g_abab_oooo Q.l2_abab Q.l2_abab Q.t2_abab Q.t2_abab),
    aug1 X.energy (ein5 L.nmjl L.jiba L.lkdc L.dcmk L.bani [] Q.g_aaaa_oooo Q.l2_abab Q.l2_abab Q.t2_abab Q.t2_abab),
    aug1 X.energy (ein5 L.nmjl L.jiba L.lkcd L.cdmk L.bani [] Q.g_aaaa_oooo Q.l2_abab Q.l2_abab Q.t2_abab Q.t2_abab),
    aug1 X.energy (ein5 L.nmjl L.jiba L.kldc L.dckm L.bani [] Q.g_abab_oooo Q.l2_abab Q.l2_bbbb Q.t2_bbbb Q.t2_abab),
    aug1 X.energy (ein5 L.nmjl L.jiab L.kldc L.dckm L.abni [] Q.g_aaaa_oooo Q.l2_abab Q.l2_aaaa Q.t2_aaaa Q.t2_abab),
    aug1 X.energy (ein5 L.nmjl L.jiab L.kldc L.dckm L.abni [] Q.g_abab_oooo Q.l2_abab Q.l2_abab Q.t2_abab Q.t2_abab),
    aug1 X.energy (ein5 L.nmjl L.jiab L.klcd L.cdkm L.abni [] Q.g_abab_oooo Q.l2_abab Q.l2_abab Q.t2_abab Q.t2_abab),
    aug1 X.energy (ein5 L.nmjl L.jiab L.lkdc L.dcmk L.abni [] Q.g_aaaa_oooo Q.l2_abab Q.l2_abab Q.t2_abab Q.t2_abab),
    aug1 X.energy (ein5 L.nmjl L.jiab L.lkcd L.cdmk L.abni [] Q.g_aaaa_oooo Q.l2_abab Q.l2_abab Q.t2_abab Q.t2_abab),
    aug1 X.energy (ein5 L.nmjl L.jiab L.kldc L.dckm L.abni [] Q.g_abab_oooo Q.l2_abab Q.l2_bbbb Q.t2_bbbb Q.t2_abab),
    aug1 X.energy (ein5 L.mnlj L.ijba L.kldc L.dckm L.bain [] Q.g_abab_oooo Q.l2_bbbb Q.l2_aaaa Q.t2_aaaa Q.t2_bbbb),
    aug1 X.energy (ein5 L.nmjl L.ijba L.kldc L.dckm L.bain [] Q.g_bbbb_oooo Q.l2_bbbb Q.l2_abab Q.t2_abab Q.t2_bbbb),
    aug1 X.energy (ein5 L.nmjl L.ijba L.klcd L.cdkm L.bain [] Q.g_bbbb_oooo Q.l2_bbbb Q.l2_abab Q.t2_abab Q.t2_bbbb),
    aug1 X.energy (ein5 L.mnlj L.ijba L.lkdc L.dcmk L.bain [] Q.g_abab_oooo Q.l2_bbbb Q.l2_abab Q.t2_abab Q.t2_bbbb),
    aug1 X.energy (ein5 L.mnlj L.ijba L.lkcd L.cdmk L.bain [] Q.g_abab_oooo Q.l2_bbbb Q.l2_abab Q.t2_abab Q.t2_bbbb),
    aug1 X.energy (ein5 L.nmjl L.ijba L.kldc L.dckm L.bain [] Q.g_bbbb_oooo Q.l2_bbbb Q.l2_bbbb Q.t2_bbbb Q.t2_bbbb),
    aug1 X.energy (ein5 L.nmjl L.ijba L.kldc L.dcim L.bakn [] Q.g_aaaa_oooo Q.l2_aaaa Q.l2_aaaa Q.t2_aaaa Q.t2_aaaa),
    aug1 X.energy (ein5 L.nmjl L.ijba L.kldc L.dcim L.bakn [] Q.g_abab_oooo Q.l2_aaaa Q.l2_abab Q.t2_abab Q.t2_aaaa),
    aug1 X.energy (ein5 L.nmjl L.ijba L.klcd L.cdim L.bakn [] Q.g_abab_oooo Q.l2_aaaa Q.l2_abab Q.t2_abab Q.t2_aaaa),
    aug1 X.energy (ein5 L.mnlj L.ijba L.kldc L.dcim L.bakn [] Q.g_abab_oooo Q.l2_abab Q.l2_aaaa Q.t2_aaaa Q.t2_abab),
    aug1 X.energy (ein5 L.nmjl L.ijba L.kldc L.dcim L.bakn [] Q.g_bbbb_oooo Q.l2_abab Q.l2_abab Q.t2_abab Q.t2_abab),
    aug1 X.energy (ein5 L.nmjl L.ijba L.klcd L.cdim L.bakn [] Q.g_bbbb_oooo Q.l2_abab Q.l2_abab Q.t2_abab Q.t2_abab),
    aug1 X.energy (ein5 L.nmlj L.ijba L.lkdc L.dcim L.bank [] Q.g_abab_oooo Q.l2_abab Q.l2_abab Q.t2_abab Q.t2_abab),
    aug1 X.energy (ein5 L.nmlj L.ijba L.lkcd L.cdim L.bank [] Q.g_abab_oooo Q.l2_abab Q.l2_abab Q.t2_abab Q.t2_abab),
    aug1 X.energy (ein5 L.mnlj L.ijab L.kldc L.dcim L.abkn [] Q.g_abab_oooo Q.l2_abab Q.l2_aaaa Q.t2_aaaa Q.t2_abab),
    aug1 X.energy (ein5 L.nmjl L.ijab L.kldc L.dcim L.abkn [] Q.g_bbbb_oooo Q.l2_abab Q.l2_abab Q.t2_abab Q.t2_abab),
    aug1 X.energy (ein5 L.nmjl L.ijab L.klcd L.cdim L.abkn [] Q.g_bbbb_oooo Q.l2_abab Q.l2_abab Q.t2_abab Q.t2_abab),
    aug1 X.energy (ein5 L.nmlj L.ijab L.lkdc L.dcim L.abnk [] Q.g_abab_oooo Q.l2_abab Q.l2_abab Q.t2_abab Q.t2_abab),
    aug1 X.energy (ein5 L.nmlj L.ijab L.lkcd L.cdim L.abnk [] Q.g_abab_oooo Q.l2_abab Q.l2_abab Q.t2_abab Q.t2_abab),
    aug1 X.energy (ein5 L.mnjl L.jiba L.kldc L.dcmi L.bakn [] Q.g_abab_oooo Q.l2_abab Q.l2_abab Q.t2_abab Q.t2_abab),
    aug1 X.energy (ein5 L.mnjl L.jiba L.klcd L.cdmi L.bakn [] Q.g_abab_oooo Q.l2_abab Q.l2_abab Q.t2_abab Q.t2_abab),
    aug1 X.energy (ein5 L.nmjl L.jiba L.lkdc L.dcmi L.bank [] Q.g_aaaa_oooo Q.l2_abab Q.l2_abab Q.t2_abab Q.t2_abab),
    aug1 X.energy (ein5 L.nmjl L.jiba L.lkcd L.cdmi L.bank [] Q.g_aaaa_oooo Q.l2_abab Q.l2_abab Q.t2_abab Q.t2_abab),
    aug1 X.energy (ein5 L.nmjl L.jiba L.kldc L.dcim L.bank [] Q.g_abab_oooo Q.l2_abab Q.l2_bbbb Q.t2_bbbb Q.t2_abab),
    aug1 X.energy (ein5 L.mnjl L.jiab L.kldc L.dcmi L.abkn [] Q.g_abab_oooo Q.l2_abab Q.l2_abab Q.t2_abab Q.t2_abab),
    aug1 X.energy (ein5 L.mnjl L.jiab L.klcd L.cdmi L.abkn [] Q.g_abab_oooo Q.l2_abab Q.l2_abab Q.t2_abab Q.t2_abab),
    aug1 X.energy (ein5 L.nmjl L.jiab L.lkdc L.dcmi L.abnk [] Q.g_aaaa_oooo Q.l2_abab Q.l2_abab Q.t2_abab Q.t2_abab),
    aug1 X.energy (ein5 L.nmjl L.jiab L.lkcd L.cdmi L.abnk [] Q.g_aaaa_oooo Q.l2_abab Q.l2_abab Q.t2_abab Q.t2_abab),
    aug1 X.energy (ein5 L.nmjl L.jiab L.kldc L.dcim L.abnk [] Q.g_abab_oooo Q.l2_abab Q.l2_bbbb Q.t2_bbbb Q.t2_abab),
    aug1 X.energy (ein5 L.mnlj L.ijba L.lkdc L.dcmi L.bakn [] Q.g_abab_oooo Q.l2_bbbb Q.l2_abab Q.t2_abab Q.t2_bbbb),
    aug1 X.energy (ein5 L.mnlj L.ijba L.lkcd L.cdmi L.bakn [] Q.g_abab_oooo Q.l2_bbbb Q.l2_abab Q.t2_abab Q.t2_bbbb),
    aug1 X.energy (ein5 L.nmjl L.ijba L.kldc L.dcim L.bakn [] Q.g_bbbb_oooo Q.l2_bbbb Q.l2_bbbb Q.t2_bbbb Q.t2_bbbb),
    aug1 X.energy (ein5 L.nmjl L.ijba L.kldc L.dbkm L.cain [] Q.g_aaaa_oooo Q.l2_aaaa Q.l2_aaaa Q.t2_aaaa Q.t2_aaaa),
    aug1 X.energy (ein5 L.mnjl L.ijba L.kldc L.dbkm L.acin [] Q.g_abab_oooo Q.l2_aaaa Q.l2_abab Q.t2_aaaa Q.t2_abab),
    aug1 X.energy (ein5 L.nmjl L.ijba L.klcd L.bdkm L.cain [] Q.g_abab_oooo Q.l2_aaaa Q.l2_abab Q.t2_abab Q.t2_aaaa),
    aug1 X.energy (ein5 L.nmjl L.ijba L.lkcd L.bdmk L.cain [] Q.g_aaaa_oooo Q.l2_aaaa Q.l2_abab Q.t2_abab Q.t2_aaaa),
    aug1 X.energy (ein5 L.mnjl L.ijba L.kldc L.bdmk L.acin [] Q.g_abab_oooo Q.l2_aaaa Q.l2_bbbb Q.t2_abab Q.t2_abab),
    aug1 X.energy (ein5 L.mnlj L.ijba L.kldc L.dbkm L.cain [] Q.g_abab_oooo Q.l2_abab Q.l2_aaaa Q.t2_aaaa Q.t2_abab),
    aug1 X.energy (ein5 L.nmjl L.ijba L.klcd L.bdkm L.cain [] Q.g_bbbb_oooo Q.l2_abab Q.l2_abab Q.t2_abab Q.t2_abab),
    aug1 X.energy (ein5 L.mnlj L.ijba L.lkcd L.bdmk L.cain [] Q.g_abab_oooo Q.l2_abab Q.l2_abab Q.t2_abab Q.t2_abab),
    aug1 X.energy (ein5 L.nmlj L.ijab L.kldc L.dbkm L.cain [] Q.g_abab_oooo Q.l2_abab Q.l2_aaaa Q.t2_abab Q.t2_aaaa),
    aug1 X.energy (ein5 L.nmjl L.ijab L.kldc L.dbkm L.acin [] Q.g_bbbb_oooo Q.l2_abab Q.l2_abab Q.t2_abab Q.t2_abab),
    aug1 X.energy (ein5 L.mnlj L.ijab L.lkdc L.dbmk L.acin [] Q.g_abab_oooo Q.l2_abab Q.l2_abab Q.t2_abab Q.t2_abab),
    aug1 X.energy (ein5 L.nmlj L.ijab L.lkcd L.dbkm L.cain [] Q.g_abab_oooo Q.l2_abab Q.l2_abab Q.t2_bbbb Q.t2_aaaa),
    aug1 X.energy (ein5 L.nmjl L.ijab L.kldc L.dbkm L.acin [] Q.g_bbbb_oooo Q.l2_abab Q.l2_bbbb Q.t2_bbbb Q.t2_abab),
    aug1 X.energy (ein5 L.nmjl L.jiba L.kldc L.dbkm L.cani [] Q.g_aaaa_oooo Q.l2_abab Q.l2_aaaa Q.t2_aaaa Q.t2_abab),
    aug1 X.energy (ein5 L.mnjl L.jiba L.kldc L.dbkm L.cain [] Q.g_abab_oooo Q.l2_abab Q.l2_abab Q.t2_aaaa Q.t2_bbbb),
    aug1 X.energy (ein5 L.nmjl L.jiba L.klcd L.bdkm L.cani [] Q.g_abab_oooo Q.l2_abab Q.l2_abab Q.t2_abab Q.t2_abab),
    aug1 X.energy (ein5 L.nmjl L.jiba L.lkcd L.bdmk L.cani [] Q.g_aaaa_oooo Q.l2_abab Q.l2_abab Q.t2_abab Q.t2_abab),
    aug1 X.energy (ein5 L.mnjl L.jiba L.kldc L.bdmk L.cain [] Q.g_abab_oooo Q.l2_abab Q.l2_bbbb Q.t2_abab Q.t2_bbbb),
    aug1 X.energy (ein5 L.nmjl L.jiab L.kldc L.dbkm L.acni [] Q.g_abab_oooo Q.l2_abab Q.l2_abab Q.t2_abab Q.t2_abab),
    aug1 X.energy (ein5 L.nmjl L.jiab L.lkdc L.dbmk L.acni [] Q.g_aaaa_oooo Q.l2_abab Q.l2_abab Q.t2_abab Q.t2_abab),
    aug1 X.energy (ein5 L.nmjl L.jiab L.kldc L.dbkm L.acni [] Q.g_abab_oooo Q.l2_abab Q.l2_bbbb Q.t2_bbbb Q.t2_abab),
    aug1 X.energy (ein5 L.nmlj L.ijba L.kldc L.dbkm L.cani [] Q.g_abab_oooo Q.l2_bbbb Q.l2_aaaa Q.t2_abab Q.t2_abab),
    aug1 X.energy (ein5 L.nmjl L.ijba L.kldc L.dbkm L.cain [] Q.g_bbbb_oooo Q.l2_bbbb Q.l2_abab Q.t2_abab Q.t2_bbbb),
    aug1 X.energy (ein5 L.mnlj L.ijba L.lkdc L.dbmk L.cain [] Q.g_abab_oooo Q.l2_bbbb Q.l2_abab Q.t2_abab Q.t2_bbbb),
    aug1 X.energy (ein5 L.nmlj L.ijba L.lkcd L.dbkm L.cani [] Q.g_abab_oooo Q.l2_bbbb Q.l2_abab Q.t2_bbbb Q.t2_abab),
    aug1 X.energy (ein5 L.nmjl L.ijba L.kldc L.dbkm L.cain [] Q.g_bbbb_oooo Q.l2_bbbb Q.l2_bbbb Q.t2_bbbb Q.t2_bbbb),
    aug1 X.energy (ein5 L.nmjl L.ijba L.kldc L.dbim L.cakn [] Q.g_aaaa_oooo Q.l2_aaaa Q.l2_aaaa Q.t2_aaaa Q.t2_aaaa),
    aug1 X.energy (ein5 L.mnjl L.ijba L.kldc L.dbim L.ackn [] Q.g_abab_oooo Q.l2_aaaa Q.l2_abab Q.t2_aaaa Q.t2_abab),
    aug1 X.energy (ein5 L.nmjl L.ijba L.klcd L.bdim L.cakn [] Q.g_abab_oooo Q.l2_aaaa Q.l2_abab Q.t2_abab Q.t2_aaaa),
    aug1 X.energy (ein5 L.nmjl L.ijba L.lkdc L.dbim L.acnk [] Q.g_aaaa_oooo Q.l2_aaaa Q.l2_abab Q.t2_aaaa Q.t2_abab),
    aug1 X.energy (ein5 L.nmjl L.ijba L.kldc L.bdim L.acnk [] Q.g_abab_oooo Q.l2_aaaa Q.l2_bbbb Q.t2_abab Q.t2_abab),
    aug1 X.energy (ein5 L.mnlj L.ijba L.kldc L.dbim L.cakn [] Q.g_abab_oooo Q.l2_abab Q.l2_aaaa Q.t2_aaaa Q.t2_abab),
    aug1 X.energy (ein5 L.nmjl L.ijba L.klcd L.bdim L.cakn [] Q.g_bbbb_oooo Q.l2_abab Q.l2_abab Q.t2_abab Q.t2_abab),
    aug1 X.energy (ein5 L.mnlj L.ijba L.lkdc L.dbim L.cakn [] Q.g_abab_oooo Q.l2_abab Q.l2_abab Q.t2_aaaa Q.t2_bbbb),
    aug1 X.energy (ein5 L.nmlj L.ijba L.lkcd L.bdim L.cank [] Q.g_abab_oooo Q.l2_abab Q.l2_abab Q.t2_abab Q.t2_abab),
    aug1 X.energy (ein5 L.nmjl L.ijba L.kldc L.bdim L.cakn [] Q.g_bbbb_oooo Q.l2_abab Q.l2_bbbb Q.t2_abab Q.t2_bbbb),
    aug1 X.energy (ein5 L.nmlj L.ijab L.kldc L.dbim L.cakn [] Q.g_abab_oooo Q.l2_abab Q.l2_aaaa Q.t2_abab Q.t2_aaaa),
    aug1 X.energy (ein5 L.nmjl L.ijab L.kldc L.dbim L.ackn [] Q.g_bbbb_oooo Q.l2_abab Q.l2_abab Q.t2_abab Q.t2_abab),
    aug1 X.energy (ein5 L.nmlj L.ijab L.lkdc L.dbim L.acnk [] Q.g_abab_oooo Q.l2_abab Q.l2_abab Q.t2_abab Q.t2_abab),
    aug1 X.energy (ein5 L.mnjl L.jiba L.klcd L.bdmi L.cakn [] Q.g_abab_oooo Q.l2_abab Q.l2_abab Q.t2_abab Q.t2_abab),
    aug1 X.energy (ein5 L.nmjl L.jiba L.lkcd L.bdmi L.cank [] Q.g_aaaa_oooo Q.l2_abab Q.l2_abab Q.t2_abab Q.t2_abab),
    aug1 X.energy (ein5 L.mnjl L.jiba L.kldc L.bdmi L.cakn [] Q.g_abab_oooo Q.l2_abab Q.l2_bbbb Q.t2_abab Q.t2_bbbb),
    aug1 X.energy (ein5 L.nmjl L.jiab L.kldc L.dbmi L.cakn [] Q.g_aaaa_oooo Q.l2_abab Q.l2_aaaa Q.t2_abab Q.t2_aaaa),
    aug1 X.energy (ein5 L.mnjl L.jiab L.kldc L.dbmi L.ackn [] Q.g_abab_oooo Q.l2_abab Q.l2_abab Q.t2_abab Q.t2_abab),
    aug1 X.energy (ein5 L.nmjl L.jiab L.klcd L.dbim L.cakn [] Q.g_abab_oooo Q.l2_abab Q.l2_abab Q.t2_bbbb Q.t2_aaaa),
    aug1 X.energy (ein5 L.nmjl L.jiab L.lkdc L.dbmi L.acnk [] Q.g_aaaa_oooo Q.l2_abab Q.l2_abab Q.t2_abab Q.t2_abab),
    aug1 X.energy (ein5 L.nmjl L.jiab L.kldc L.dbim L.acnk [] Q.g_abab_oooo Q.l2_abab Q.l2_bbbb Q.t2_bbbb Q.t2_abab),
    aug1 X.energy (ein5 L.mnlj L.ijba L.kldc L.dbmi L.cakn [] Q.g_abab_oooo Q.l2_bbbb Q.l2_aaaa Q.t2_abab Q.t2_abab),
    aug1 X.energy (ein5 L.nmjl L.ijba L.klcd L.dbim L.cakn [] Q.g_bbbb_oooo Q.l2_bbbb Q.l2_abab Q.t2_bbbb Q.t2_abab),
    aug1 X.energy (ein5 L.mnlj L.ijba L.lkdc L.dbmi L.cakn [] Q.g_abab_oooo Q.l2_bbbb Q.l2_abab Q.t2_abab Q.t2_bbbb),
    aug1 X.energy (ein5 L.nmlj L.ijba L.lkcd L.dbim L.cank [] Q.g_abab_oooo Q.l2_bbbb Q.l2_abab Q.t2_bbbb Q.t2_abab),
    aug1 X.energy (ein5 L.nmjl L.ijba L.kldc L.dbim L.cakn [] Q.g_bbbb_oooo Q.l2_bbbb Q.l2_bbbb Q.t2_bbbb Q.t2_bbbb),
    aug1 X.energy (ein5 L.nmij L.ijba L.kldc L.dclm L.bakn [] Q.g_aaaa_oooo Q.l2_aaaa Q.l2_aaaa Q.t2_aaaa Q.t2_aaaa),
    aug1 X.energy (ein5 L.nmij L.ijba L.kldc L.dcml L.bakn [] Q.g_aaaa_oooo Q.l2_aaaa Q.l2_abab Q.t2_abab Q.t2_aaaa),
    aug1 X.energy (ein5 L.nmij L.ijba L.klcd L.cdml L.bakn [] Q.g_aaaa_oooo Q.l2_aaaa Q.l2_abab Q.t2_abab Q.t2_aaaa),
    aug1 X.energy (ein5 L.mnij L.ijba L.kldc L.dclm L.bakn [] Q.g_abab_oooo Q.l2_abab Q.l2_aaaa Q.t2_aaaa Q.t2_abab),
    aug1 X.energy (ein5 L.mnij L.ijba L.kldc L.dcml L.bakn [] Q.g_abab_oooo Q.l2_abab Q.l2_abab Q.t2_abab Q.t2_abab),
    aug1 X.energy (ein5 L.mnij L.ijba L.klcd L.cdml L.bakn [] Q.g_abab_oooo Q.l2_abab Q.l2_abab Q.t2_abab Q.t2_abab),
    aug1 X.energy (ein5 L.nmij L.ijba L.lkdc L.dclm L.bank [] Q.g_abab_oooo Q.l2_abab Q.l2_abab Q.t2_abab Q.t2_abab),
    aug1 X.energy (ein5 L.nmij L.ijba L.lkcd L.cdlm L.bank [] Q.g_abab_oooo Q.l2_abab Q.l2_abab Q.t2_abab Q.t2_abab),
    aug1 X.energy (ein5 L.nmij L.ijba L.kldc L.dclm L.bank [] Q.g_abab_oooo Q.l2_abab Q.l2_bbbb Q.t2_bbbb Q.t2_abab),
    aug1 X.energy (ein5 L.mnij L.ijab L.kldc L.dclm L.abkn [] Q.g_abab_oooo Q.l2_abab Q.l2_aaaa Q.t2_aaaa Q.t2_abab),
    aug1 X.energy (ein5 L.mnij L.ijab L.kldc L.dcml L.abkn [] Q.g_abab_oooo Q.l2_abab Q.l2_abab Q.t2_abab Q.t2_abab),
    aug1 X.energy (ein5 L.mnij L.ijab L.klcd L.cdml L.abkn [] Q.g_abab_oooo Q.l2_abab Q.l2_abab Q.t2_abab Q.t2_abab),
    aug1 X.energy (ein5 L.nmij L.ijab L.lkdc L.dclm L.abnk [] Q.g_abab_oooo Q.l2_abab Q.l2_abab Q.t2_abab Q.t2_abab),
    aug1 X.energy (ein5 L.nmij L.ijab L.lkcd L.cdlm L.abnk [] Q.g_abab_oooo Q.l2_abab Q.l2_abab Q.t2_abab Q.t2_abab),
    aug1 X.energy (ein5 L.nmij L.ijab L.kldc L.dclm L.abnk [] Q.g_abab_oooo Q.l2_abab Q.l2_bbbb Q.t2_bbbb Q.t2_abab),
    aug1 X.energy (ein5 L.mnji L.jiba L.kldc L.dclm L.bakn [] Q.g_abab_oooo Q.l2_abab Q.l2_aaaa Q.t2_aaaa Q.t2_abab),
    aug1 X.energy (ein5 L.mnji L.jiba L.kldc L.dcml L.bakn [] Q.g_abab_oooo Q.l2_abab Q.l2_abab Q.t2_abab Q.t2_abab),
    aug1 X.energy (ein5 L.mnji L.jiba L.klcd L.cdml L.bakn [] Q.g_abab_oooo Q.l2_abab Q.l2_abab Q.t2_abab Q.t2_abab),
    aug1 X.energy (ein5 L.nmji L.jiba L.lkdc L.dclm L.bank [] Q.g_abab_oooo Q.l2_abab Q.l2_abab Q.t2_abab Q.t2_abab),
    aug1 X.energy (ein5 L.nmji L.jiba L.lkcd L.cdlm L.bank [] Q.g_abab_oooo Q.l2_abab Q.l2_abab Q.t2_abab Q.t2_abab),
    aug1 X.energy (ein5 L.nmji L.jiba L.kldc L.dclm L.bank [] Q.g_abab_oooo Q.l2_abab Q.l2_bbbb Q.t2_bbbb Q.t2_abab),
    aug1 X.energy (ein5 L.mnji L.jiab L.kldc L.dclm L.abkn [] Q.g_abab_oooo Q.l2_abab Q.l2_aaaa Q.t2_aaaa Q.t2_abab),
    aug1 X.energy (ein5 L.mnji L.jiab L.kldc L.dcml L.abkn [] Q.g_abab_oooo Q.l2_abab Q.l2_abab Q.t2_abab Q.t2_abab),
    aug1 X.energy (ein5 L.mnji L.jiab L.klcd L.cdml L.abkn [] Q.g_abab_oooo Q.l2_abab Q.l2_abab Q.t2_abab Q.t2_abab),
    aug1 X.energy (ein5 L.nmji L.jiab L.lkdc L.dclm L.abnk [] Q.g_abab_oooo Q.l2_abab Q.l2_abab Q.t2_abab Q.t2_abab),
    aug1 X.energy (ein5 L.nmji L.jiab L.lkcd L.cdlm L.abnk [] Q.g_abab_oooo Q.l2_abab Q.l2_abab Q.t2_abab Q.t2_abab),
    aug1 X.energy (ein5 L.nmji L.jiab L.kldc L.dclm L.abnk [] Q.g_abab_oooo Q.l2_abab Q.l2_bbbb Q.t2_bbbb Q.t2_abab),
    aug1 X.energy (ein5 L.nmij L.ijba L.lkdc L.dclm L.bakn [] Q.g_bbbb_oooo Q.l2_bbbb Q.l2_abab Q.t2_abab Q.t2_bbbb),
    aug1 X.energy (ein5 L.nmij L.ijba L.lkcd L.cdlm L.bakn [] Q.g_bbbb_oooo Q.l2_bbbb Q.l2_abab Q.t2_abab Q.t2_bbbb),
    aug1 X.energy (ein5 L.nmij L.ijba L.kldc L.dclm L.bakn [] Q.g_bbbb_oooo Q.l2_bbbb Q.l2_bbbb Q.t2_bbbb Q.t2_bbbb),
    aug1 X.energy (ein5 L.nmij L.ijba L.kldc L.dblm L.cakn [] Q.g_aaaa_oooo Q.l2_aaaa Q.l2_aaaa Q.t2_aaaa Q.t2_aaaa),
    aug1 X.energy (ein5 L.nmij L.ijba L.klcd L.bdml L.cakn [] Q.g_aaaa_oooo Q.l2_aaaa Q.l2_abab Q.t2_abab Q.t2_aaaa),
    aug1 X.energy (ein5 L.nmij L.ijba L.lkdc L.dblm L.acnk [] Q.g_aaaa_oooo Q.l2_aaaa Q.l2_abab Q.t2_aaaa Q.t2_abab),
    aug1 X.energy (ein5 L.nmij L.ijba L.kldc L.bdml L.acnk [] Q.g_aaaa_oooo Q.l2_aaaa Q.l2_bbbb Q.t2_abab Q.t2_abab),
    aug1 X.energy (ein5 L.mnij L.ijba L.kldc L.dblm L.cakn [] Q.g_abab_oooo Q.l2_abab Q.l2_aaaa Q.t2_aaaa Q.t2_abab),
    aug1 X.energy (ein5 L.mnij L.ijba L.klcd L.bdml L.cakn [] Q.g_abab_oooo Q.l2_abab Q.l2_abab Q.t2_abab Q.t2_abab),
    aug1 X.energy (ein5 L.mnij L.ijba L.lkdc L.dblm L.cakn [] Q.g_abab_oooo Q.l2_abab Q.l2_abab Q.t2_aaaa Q.t2_bbbb),
    aug1 X.energy (ein5 L.nmij L.ijba L.lkcd L.bdlm L.cank [] Q.g_abab_oooo Q.l2_abab Q.l2_abab Q.t2_abab Q.t2_abab),
    aug1 X.energy (ein5 L.mnij L.ijba L.kldc L.bdml L.cakn [] Q.g_abab_oooo Q.l2_abab Q.l2_bbbb Q.t2_abab Q.t2_bbbb),
    aug1 X.energy (ein5 L.nmij L.ijab L.kldc L.dblm L.cakn [] Q.g_abab_oooo Q.l2_abab Q.l2_aaaa Q.t2_abab Q.t2_aaaa),
    aug1 X.energy (ein5 L.mnij L.ijab L.kldc L.dbml L.ackn [] Q.g_abab_oooo Q.l2_abab Q.l2_abab Q.t2_abab Q.t2_abab),
    aug1 X.energy (ein5 L.nmij L.ijab L.klcd L.dblm L.cakn [] Q.g_abab_oooo Q.l2_abab Q.l2_abab Q.t2_bbbb Q.t2_aaaa),
    aug1 X.energy (ein5 L.nmij L.ijab L.lkdc L.dblm L.acnk [] Q.g_abab_oooo Q.l2_abab Q.l2_abab Q.t2_abab Q.t2_abab),
    aug1 X.energy (ein5 L.nmij L.ijab L.kldc L.dblm L.acnk [] Q.g_abab_oooo Q.l2_abab Q.l2_bbbb Q.t2_bbbb Q.t2_abab),
    aug1 X.energy (ein5 L.mnji L.jiba L.kldc L.dblm L.cakn [] Q.g_abab_oooo Q.l2_abab Q.l2_aaaa Q.t2_aaaa Q.t2_abab),
    aug1 X.energy (ein5 L.mnji L.jiba L.klcd L.bdml L.cakn [] Q.g_abab_oooo Q.l2_abab Q.l2_abab Q.t2_abab Q.t2_abab),
    aug1 X.energy (ein5 L.mnji L.jiba L.lkdc L.dblm L.cakn [] Q.g_abab_oooo Q.l2_abab Q.l2_abab Q.t2_aaaa Q.t2_bbbb),
    aug1 X.energy (ein5 L.nmji L.jiba L.lkcd L.bdlm L.cank [] Q.g_abab_oooo Q.l2_abab Q.l2_abab Q.t2_abab Q.t2_abab),
    aug1 X.energy (ein5 L.mnji L.jiba L.kldc L.bdml L.cakn [] Q.g_abab_oooo Q.l2_abab Q.l2_bbbb Q.t2_abab Q.t2_bbbb),
    aug1 X.energy (ein5 L.nmji L.jiab L.kldc L.dblm L.cakn [] Q.g_abab_oooo Q.l2_abab Q.l2_aaaa Q.t2_abab Q.t2_aaaa),
    aug1 X.energy (ein5 L.mnji L.jiab L.kldc L.dbml L.ackn [] Q.g_abab_oooo Q.l2_abab Q.l2_abab Q.t2_abab Q.t2_abab),
    aug1 X.energy (ein5 L.nmji L.jiab L.klcd L.dblm L.cakn [] Q.g_abab_oooo Q.l2_abab Q.l2_abab Q.t2_bbbb Q.t2_aaaa),
    aug1 X.energy (ein5 L.nmji L.jiab L.lkdc L.dblm L.acnk [] Q.g_abab_oooo Q.l2_abab Q.l2_abab Q.t2_abab Q.t2_abab),
    aug1 X.energy (ein5 L.nmji L.jiab L.kldc L.dblm L.acnk [] Q.g_abab_oooo Q.l2_abab Q.l2_bbbb Q.t2_bbbb Q.t2_abab),
    aug1 X.energy (ein5 L.nmij L.ijba L.kldc L.dblm L.cakn [] Q.g_bbbb_oooo Q.l2_bbbb Q.l2_aaaa Q.t2_abab Q.t2_abab),
    aug1 X.energy (ein5 L.nmij L.ijba L.klcd L.dblm L.cakn [] Q.g_bbbb_oooo Q.l2_bbbb Q.l2_abab Q.t2_bbbb Q.t2_abab),
    aug1 X.energy (ein5 L.nmij L.ijba L.lkdc L.dblm L.cakn [] Q.g_bbbb_oooo Q.l2_bbbb Q.l2_abab Q.t2_abab Q.t2_bbbb),
    aug1 X.energy (ein5 L.nmij L.ijba L.kldc L.dblm L.cakn [] Q.g_bbbb_oooo Q.l2_bbbb Q.l2_bbbb Q.t2_bbbb Q.t2_bbbb),
    aug1 X.energy (ein5 L.mdel L.ijba L.kldc L.ecjk L.baim [] Q.g_aaaa_ovvo Q.l2_aaaa Q.l2_aaaa Q.t2_aaaa Q.t2_aaaa),
    aug1 X.energy (ein5 L.mdel L.ijba L.klcd L.ecjk L.baim [] Q.g_abab_ovvo Q.l2_aaaa Q.l2_abab Q.t2_aaaa Q.t2_aaaa),
    aug1 X.energy (ein5 L.mdel L.ijba L.lkdc L.ecjk L.baim [] Q.g_aaaa_ovvo Q.l2_aaaa Q.l2_abab Q.t2_abab Q.t2_aaaa),
    aug1 X.energy (ein5 L.mdle L.ijba L.lkcd L.cejk L.baim [] Q.g_abab_ovov Q.l2_aaaa Q.l2_abab Q.t2_abab Q.t2_aaaa),
    aug1 X.energy (ein5 L.mdel L.ijba L.kldc L.ecjk L.baim [] Q.g_abab_ovvo Q.l2_aaaa Q.l2_bbbb Q.t2_abab Q.t2_aaaa),
    aug1 X.energy (ein5 L.dmle L.ijba L.kldc L.cekj L.baim [] Q.g_abab_voov Q.l2_abab Q.l2_aaaa Q.t2_abab Q.t2_abab),
    aug1 X.energy (ein5 L.dmel L.ijba L.kldc L.eckj L.baim [] Q.g_abab_vovo Q.l2_abab Q.l2_abab Q.t2_abab Q.t2_abab),
    aug1 X.energy (ein5 L.mdel L.ijba L.klcd L.cekj L.baim [] Q.g_bbbb_ovvo Q.l2_abab Q.l2_abab Q.t2_abab Q.t2_abab),
    aug1 X.energy (ein5 L.dmle L.ijba L.lkdc L.ecjk L.baim [] Q.g_abab_voov Q.l2_abab Q.l2_abab Q.t2_bbbb Q.t2_abab),
    aug1 X.energy (ein5 L.mdel L.ijba L.kldc L.ecjk L.baim [] Q.g_bbbb_ovvo Q.l2_abab Q.l2_bbbb Q.t2_bbbb Q.t2_abab),
    aug1 X.energy (ein5 L.dmle L.ijab L.kldc L.cekj L.abim [] Q.g_abab_voov Q.l2_abab Q.l2_aaaa Q.t2_abab Q.t2_abab),
    aug1 X.energy (ein5 L.dmel L.ijab L.kldc L.eckj L.abim [] Q.g_abab_vovo Q.l2_abab Q.l2_abab Q.t2_abab Q.t2_abab),
    aug1 X.energy (ein5 L.mdel L.ijab L.klcd L.cekj L.abim [] Q.g_bbbb_ovvo Q.l2_abab Q.l2_abab Q.t2_abab Q.t2_abab),
    aug1 X.energy (ein5 L.dmle L.ijab L.lkdc L.ecjk L.abim [] Q.g_abab_voov Q.l2_abab Q.l2_abab Q.t2_bbbb Q.t2_abab),
    aug1 X.energy (ein5 L.mdel L.ijab L.kldc L.ecjk L.abim [] Q.g_bbbb_ovvo Q.l2_abab Q.l2_bbbb Q.t2_bbbb Q.t2_abab),
    aug1 X.energy (ein5 L.mdel L.jiba L.kldc L.ecjk L.bami [] Q.g_aaaa_ovvo Q.l2_abab Q.l2_aaaa Q.t2_aaaa Q.t2_abab),
    aug1 X.energy (ein5 L.mdel L.jiba L.klcd L.ecjk L.bami [] Q.g_abab_ovvo Q.l2_abab Q.l2_abab Q.t2_aaaa Q.t2_abab),
    aug1 X.energy (ein5 L.mdel L.jiba L.lkdc L.ecjk L.bami [] Q.g_aaaa_ovvo Q.l2_abab Q.l2_abab Q.t2_abab Q.t2_abab),
    aug1 X.energy (ein5 L.mdle L.jiba L.lkcd L.cejk L.bami [] Q.g_abab_ovov Q.l2_abab Q.l2_abab Q.t2_abab Q.t2_abab),
    aug1 X.energy (ein5 L.mdel L.jiba L.kldc L.ecjk L.bami [] Q.g_abab_ovvo Q.l2_abab Q.l2_bbbb Q.t2_abab Q.t2_abab),
    aug1 X.energy (ein5 L.mdel L.jiab L.kldc L.ecjk L.abmi [] Q.g_aaaa_ovvo Q.l2_abab Q.l2_aaaa Q.t2_aaaa Q.t2_abab),
    aug1 X.energy (ein5 L.mdel L.jiab L.klcd L.ecjk L.abmi [] Q.g_abab_ovvo Q.l2_abab Q.l2_abab Q.t2_aaaa Q.t2_abab),
    aug1 X.energy (ein5 L.mdel L.jiab L.lkdc L.ecjk L.abmi [] Q.g_aaaa_ovvo Q.l2_abab Q.l2_abab Q.t2_abab Q.t2_abab),
    aug1 X.energy (ein5 L.mdle L.jiab L.lkcd L.cejk L.abmi [] Q.g_abab_ovov Q.l2_abab Q.l2_abab Q.t2_abab Q.t2_abab),
    aug1 X.energy (ein5 L.mdel L.jiab L.kldc L.ecjk L.abmi [] Q.g_abab_ovvo Q.l2_abab Q.l2_bbbb Q.t2_abab Q.t2_abab),
    aug1 X.energy (ein5 L.dmle L.ijba L.kldc L.cekj L.baim [] Q.g_abab_voov Q.l2_bbbb Q.l2_aaaa Q.t2_abab Q.t2_bbbb),
    aug1 X.energy (ein5 L.dmel L.ijba L.kldc L.eckj L.baim [] Q.g_abab_vovo Q.l2_bbbb Q.l2_abab Q.t2_abab Q.t2_bbbb),
    aug1 X.energy (ein5 L.mdel L.ijba L.klcd L.cekj L.baim [] Q.g_bbbb_ovvo Q.l2_bbbb Q.l2_abab Q.t2_abab Q.t2_bbbb),
    aug1 X.energy (ein5 L.dmle L.ijba L.lkdc L.ecjk L.baim [] Q.g_abab_voov Q.l2_bbbb Q.l2_abab Q.t2_bbbb Q.t2_bbbb),
    aug1 X.energy (ein5 L.mdel L.ijba L.kldc L.ecjk L.baim [] Q.g_bbbb_ovvo Q.l2_bbbb Q.l2_bbbb Q.t2_bbbb Q.t2_bbbb),
    aug1 X.energy (ein5 L.mdel L.ijba L.kldc L.ecij L.bakm [] Q.g_aaaa_ovvo Q.l2_aaaa Q.l2_aaaa Q.t2_aaaa Q.t2_aaaa),
    aug1 X.energy (ein5 L.mdel L.ijba L.klcd L.ecij L.bakm [] Q.g_abab_ovvo Q.l2_aaaa Q.l2_abab Q.t2_aaaa Q.t2_aaaa),
    aug1 X.energy (ein5 L.dmle L.ijba L.kldc L.ceij L.bakm [] Q.g_abab_voov Q.l2_abab Q.l2_aaaa Q.t2_abab Q.t2_abab),
    aug1 X.energy (ein5 L.dmel L.ijba L.kldc L.ecij L.bakm [] Q.g_abab_vovo Q.l2_abab Q.l2_abab Q.t2_abab Q.t2_abab),
    aug1 X.energy (ein5 L.mdel L.ijba L.klcd L.ceij L.bakm [] Q.g_bbbb_ovvo Q.l2_abab Q.l2_abab Q.t2_abab Q.t2_abab),
    aug1 X.energy (ein5 L.mdel L.ijba L.lkdc L.ecij L.bamk [] Q.g_aaaa_ovvo Q.l2_abab Q.l2_abab Q.t2_abab Q.t2_abab),
    aug1 X.energy (ein5 L.mdle L.ijba L.lkcd L.ceij L.bamk [] Q.g_abab_ovov Q.l2_abab Q.l2_abab Q.t2_abab Q.t2_abab),
    aug1 X.energy (ein5 L.mdel L.ijba L.kldc L.ecij L.bamk [] Q.g_abab_ovvo Q.l2_abab Q.l2_bbbb Q.t2_abab Q.t2_abab),
    aug1 X.energy (ein5 L.dmle L.ijab L.kldc L.ceij L.abkm [] Q.g_abab_voov Q.l2_abab Q.l2_aaaa Q.t2_abab Q.t2_abab),
    aug1 X.energy (ein5 L.dmel L.ijab L.kldc L.ecij L.abkm [] Q.g_abab_vovo Q.l2_abab Q.l2_abab Q.t2_abab Q.t2_abab),
    aug1 X.energy (ein5 L.mdel L.ijab L.klcd L.ceij L.abkm [] Q.g_bbbb_ovvo Q.l2_abab Q.l2_abab Q.t2_abab Q.t2_abab),
    aug1 X.energy (ein5 L.mdel L.ijab L.lkdc L.ecij L.abmk [] Q.g_aaaa_ovvo Q.l2_abab Q.l2_abab Q.t2_abab Q.t2_abab),
    aug1 X.energy (ein5 L.mdle L.ijab L.lkcd L.ceij L.abmk [] Q.g_abab_ovov Q.l2_abab Q.l2_abab Q.t2_abab Q.t2_abab),
    aug1 X.energy (ein5 L.mdel L.ijab L.kldc L.ecij L.abmk [] Q.g_abab_ovvo Q.l2_abab Q.l2_bbbb Q.t2_abab Q.t2_abab),
    aug1 X.energy (ein5 L.dmle L.jiba L.kldc L.ceji L.bakm [] Q.g_abab_voov Q.l2_abab Q.l2_aaaa Q.t2_abab Q.t2_abab),
    aug1 X.energy (ein5 L.dmel L.jiba L.kldc L.ecji L.bakm [] Q.g_abab_vovo Q.l2_abab Q.l2_abab Q.t2_abab Q.t2_abab),
    aug1 X.energy (ein5 L.mdel L.jiba L.klcd L.ceji L.bakm [] Q.g_bbbb_ovvo Q.l2_abab Q.l2_abab Q.t2_abab Q.t2_abab),
    aug1 X.energy (ein5 L.mdel L.jiba L.lkdc L.ecji L.bamk [] Q.g_aaaa_ovvo Q.l2_abab Q.l2_abab Q.t2_abab Q.t2_abab),
    aug1 X.energy (ein5 L.mdle L.jiba L.lkcd L.ceji L.bamk [] Q.g_abab_ovov Q.l2_abab Q.l2_abab Q.t2_abab Q.t2_abab),
    aug1 X.energy (ein5 L.mdel L.jiba L.kldc L.ecji L.bamk [] Q.g_abab_ovvo Q.l2_abab Q.l2_bbbb Q.t2_abab Q.t2_abab),
    aug1 X.energy (ein5 L.dmle L.jiab L.kldc L.ceji L.abkm [] Q.g_abab_voov Q.l2_abab Q.l2_aaaa Q.t2_abab Q.t2_abab),
    aug1 X.energy (ein5 L.dmel L.jiab L.kldc L.ecji L.abkm [] Q.g_abab_vovo Q.l2_abab Q.l2_abab Q.t2_abab Q.t2_abab),
    aug1 X.energy (ein5 L.mdel L.jiab L.klcd L.ceji L.abkm [] Q.g_bbbb_ovvo Q.l2_abab Q.l2_abab Q.t2_abab Q.t2_abab),
    aug1 X.energy (ein5 L.mdel L.jiab L.lkdc L.ecji L.abmk [] Q.g_aaaa_ovvo Q.l2_abab Q.l2_abab Q.t2_abab Q.t2_abab),
    aug1 X.energy (ein5 L.mdle L.jiab L.lkcd L.ceji L.abmk [] Q.g_abab_ovov Q.l2_abab Q.l2_abab Q.t2_abab Q.t2_abab),
    aug1 X.energy (ein5 L.mdel L.jiab L.kldc L.ecji L.abmk [] Q.g_abab_ovvo Q.l2_abab Q.l2_bbbb Q.t2_abab Q.t2_abab),
    aug1 X.energy (ein5 L.dmle L.ijba L.lkdc L.ecij L.bakm [] Q.g_abab_voov Q.l2_bbbb Q.l2_abab Q.t2_bbbb Q.t2_bbbb),
    aug1 X.energy (ein5 L.mdel L.ijba L.kldc L.ecij L.bakm [] Q.g_bbbb_ovvo Q.l2_bbbb Q.l2_bbbb Q.t2_bbbb Q.t2_bbbb),
    aug1 X.energy (ein5 L.mdel L.ijba L.kldc L.ebjk L.caim [] Q.g_aaaa_ovvo Q.l2_aaaa Q.l2_aaaa Q.t2_aaaa Q.t2_aaaa),
    aug1 X.energy (ein5 L.dmel L.ijba L.kldc L.ebjk L.acim [] Q.g_abab_vovo Q.l2_aaaa Q.l2_abab Q.t2_aaaa Q.t2_abab),
    aug1 X.energy (ein5 L.mdel L.ijba L.klcd L.ebjk L.caim [] Q.g_abab_ovvo Q.l2_aaaa Q.l2_abab Q.t2_aaaa Q.t2_aaaa),
    aug1 X.energy (ein5 L.dmle L.ijba L.lkdc L.bejk L.acim [] Q.g_abab_voov Q.l2_aaaa Q.l2_abab Q.t2_abab Q.t2_abab),
    aug1 X.energy (ein5 L.mdle L.ijba L.lkcd L.bejk L.caim [] Q.g_abab_ovov Q.l2_aaaa Q.l2_abab Q.t2_abab Q.t2_aaaa),
    aug1 X.energy (ein5 L.mdel L.ijba L.kldc L.bejk L.acim [] Q.g_bbbb_ovvo Q.l2_aaaa Q.l2_bbbb Q.t2_abab Q.t2_abab),
    aug1 X.energy (ein5 L.dmle L.ijba L.kldc L.bekj L.caim [] Q.g_abab_voov Q.l2_abab Q.l2_aaaa Q.t2_abab Q.t2_abab),
    aug1 X.energy (ein5 L.mdel L.ijba L.klcd L.bekj L.caim [] Q.g_bbbb_ovvo Q.l2_abab Q.l2_abab Q.t2_abab Q.t2_abab),
    aug1 X.energy (ein5 L.mdel L.ijab L.kldc L.ebkj L.caim [] Q.g_aaaa_ovvo Q.l2_abab Q.l2_aaaa Q.t2_abab Q.t2_aaaa),
    aug1 X.energy (ein5 L.dmel L.ijab L.kldc L.ebkj L.acim [] Q.g_abab_vovo Q.l2_abab Q.l2_abab Q.t2_abab Q.t2_abab),
    aug1 X.energy (ein5 L.mdel L.ijab L.klcd L.ebkj L.caim [] Q.g_abab_ovvo Q.l2_abab Q.l2_abab Q.t2_abab Q.t2_aaaa),
    aug1 X.energy (ein5 L.dmle L.ijab L.lkdc L.ebjk L.acim [] Q.g_abab_voov Q.l2_abab Q.l2_abab Q.t2_bbbb Q.t2_abab),
    aug1 X.energy (ein5 L.mdle L.ijab L.lkcd L.ebjk L.caim [] Q.g_abab_ovov Q.l2_abab Q.l2_abab Q.t2_bbbb Q.t2_aaaa),
    aug1 X.energy (ein5 L.mdel L.ijab L.kldc L.ebjk L.acim [] Q.g_bbbb_ovvo Q.l2_abab Q.l2_bbbb Q.t2_bbbb Q.t2_abab),
    aug1 X.energy (ein5 L.mdel L.jiba L.kldc L.ebjk L.cami [] Q.g_aaaa_ovvo Q.l2_abab Q.l2_aaaa Q.t2_aaaa Q.t2_abab),
    aug1 X.energy (ein5 L.dmel L.jiba L.kldc L.ebjk L.caim [] Q.g_abab_vovo Q.l2_abab Q.l2_abab Q.t2_aaaa Q.t2_bbbb),
    aug1 X.energy (ein5 L.mdel L.jiba L.klcd L.ebjk L.cami [] Q.g_abab_ovvo Q.l2_abab Q.l2_abab Q.t2_aaaa Q.t2_abab),
    aug1 X.energy (ein5 L.dmle L.jiba L.lkdc L.bejk L.caim [] Q.g_abab_voov Q.l2_abab Q.l2_abab Q.t2_abab Q.t2_bbbb),
    aug1 X.energy (ein5 L.mdle L.jiba L.lkcd L.bejk L.cami [] Q.g_abab_ovov Q.l2_abab Q.l2_abab Q.t2_abab Q.t2_abab),
    aug1 X.energy (ein5 L.mdel L.jiba L.kldc L.bejk L.caim [] Q.g_bbbb_ovvo Q.l2_abab Q.l2_bbbb Q.t2_abab Q.t2_bbbb),
    aug1 X.energy (ein5 L.mdel L.jiab L.lkdc L.ebjk L.acmi [] Q.g_aaaa_ovvo Q.l2_abab Q.l2_abab Q.t2_abab Q.t2_abab),
    aug1 X.energy (ein5 L.mdel L.jiab L.kldc L.ebjk L.acmi [] Q.g_abab_ovvo Q.l2_abab Q.l2_bbbb Q.t2_abab Q.t2_abab),
    aug1 X.energy (ein5 L.mdel L.ijba L.kldc L.ebkj L.cami [] Q.g_aaaa_ovvo Q.l2_bbbb Q.l2_aaaa Q.t2_abab Q.t2_abab),
    aug1 X.energy (ein5 L.dmel L.ijba L.kldc L.ebkj L.caim [] Q.g_abab_vovo Q.l2_bbbb Q.l2_abab Q.t2_abab Q.t2_bbbb),
    aug1 X.energy (ein5 L.mdel L.ijba L.klcd L.ebkj L.cami [] Q.g_abab_ovvo Q.l2_bbbb Q.l2_abab Q.t2_abab Q.t2_abab),
    aug1 X.energy (ein5 L.dmle L.ijba L.lkdc L.ebjk L.caim [] Q.g_abab_voov Q.l2_bbbb Q.l2_abab Q.t2_bbbb Q.t2_bbbb),
    aug1 X.energy (ein5 L.mdle L.ijba L.lkcd L.ebjk L.cami [] Q.g_abab_ovov Q.l2_bbbb Q.l2_abab Q.t2_bbbb Q.t2_abab),
    aug1 X.energy (ein5 L.mdel L.ijba L.kldc L.ebjk L.caim [] Q.g_bbbb_ovvo Q.l2_bbbb Q.l2_bbbb Q.t2_bbbb Q.t2_bbbb),
    aug1 X.energy (ein5 L.mdel L.ijba L.kldc L.ebij L.cakm [] Q.g_aaaa_ovvo Q.l2_aaaa Q.l2_aaaa Q.t2_aaaa Q.t2_aaaa),
    aug1 X.energy (ein5 L.dmel L.ijba L.kldc L.ebij L.ackm [] Q.g_abab_vovo Q.l2_aaaa Q.l2_abab Q.t2_aaaa Q.t2_abab),
    aug1 X.energy (ein5 L.mdel L.ijba L.klcd L.ebij L.cakm [] Q.g_abab_ovvo Q.l2_aaaa Q.l2_abab Q.t2_aaaa Q.t2_aaaa),
    aug1 X.energy (ein5 L.mdel L.ijba L.lkdc L.ebij L.acmk [] Q.g_aaaa_ovvo Q.l2_aaaa Q.l2_abab Q.t2_aaaa Q.t2_abab),
    aug1 X.energy (ein5 L.mdel L.ijba L.kldc L.ebij L.acmk [] Q.g_abab_ovvo Q.l2_aaaa Q.l2_bbbb Q.t2_aaaa Q.t2_abab),
    aug1 X.energy (ein5 L.dmle L.ijba L.kldc L.beij L.cakm [] Q.g_abab_voov Q.l2_abab Q.l2_aaaa Q.t2_abab Q.t2_abab),
    aug1 X.energy (ein5 L.mdel L.ijba L.klcd L.beij L.cakm [] Q.g_bbbb_ovvo Q.l2_abab Q.l2_abab Q.t2_abab Q.t2_abab),
    aug1 X.energy (ein5 L.dmle L.ijba L.lkdc L.beij L.cakm [] Q.g_abab_voov Q.l2_abab Q.l2_abab Q.t2_abab Q.t2_bbbb),
    aug1 X.energy (ein5 L.mdle L.ijba L.lkcd L.beij L.camk [] Q.g_abab_ovov Q.l2_abab Q.l2_abab Q.t2_abab Q.t2_abab),
    aug1 X.energy (ein5 L.mdel L.ijba L.kldc L.beij L.cakm [] Q.g_bbbb_ovvo Q.l2_abab Q.l2_bbbb Q.t2_abab Q.t2_bbbb),
    aug1 X.energy (ein5 L.mdel L.ijab L.kldc L.ebij L.cakm [] Q.g_aaaa_ovvo Q.l2_abab Q.l2_aaaa Q.t2_abab Q.t2_aaaa),
    aug1 X.energy (ein5 L.dmel L.ijab L.kldc L.ebij L.ackm [] Q.g_abab_vovo Q.l2_abab Q.l2_abab Q.t2_abab Q.t2_abab),
    aug1 X.energy (ein5 L.mdel L.ijab L.klcd L.ebij L.cakm [] Q.g_abab_ovvo Q.l2_abab Q.l2_abab Q.t2_abab Q.t2_aaaa),
    aug1 X.energy (ein5 L.mdel L.ijab L.lkdc L.ebij L.acmk [] Q.g_aaaa_ovvo Q.l2_abab Q.l2_abab Q.t2_abab Q.t2_abab),
    aug1 X.energy (ein5 L.mdel L.ijab L.kldc L.ebij L.acmk [] Q.g_abab_ovvo Q.l2_abab Q.l2_bbbb Q.t2_abab Q.t2_abab),
    aug1 X.energy (ein5 L.dmle L.jiba L.kldc L.beji L.cakm [] Q.g_abab_voov Q.l2_abab Q.l2_aaaa Q.t2_abab Q.t2_abab),
    aug1 X.energy (ein5 L.mdel L.jiba L.klcd L.beji L.cakm [] Q.g_bbbb_ovvo Q.l2_abab Q.l2_abab Q.t2_abab Q.t2_abab),
    aug1 X.energy (ein5 L.dmle L.jiba L.lkdc L.beji L.cakm [] Q.g_abab_voov Q.l2_abab Q.l2_abab Q.t2_abab Q.t2_bbbb),
    aug1 X.energy (ein5 L.mdle L.jiba L.lkcd L.beji L.camk [] Q.g_abab_ovov Q.l2_abab Q.l2_abab Q.t2_abab Q.t2_abab),
    aug1 X.energy (ein5 L.mdel L.jiba L.kldc L.beji L.cakm [] Q.g_bbbb_ovvo Q.l2_abab Q.l2_bbbb Q.t2_abab Q.t2_bbbb),
    aug1 X.energy (ein5 L.mdel L.jiab L.kldc L.ebji L.cakm [] Q.g_aaaa_ovvo Q.l2_abab Q.l2_aaaa Q.t2_abab Q.t2_aaaa),
    aug1 X.energy (ein5 L.dmel L.jiab L.kldc L.ebji L.ackm [] Q.g_abab_vovo Q.l2_abab Q.l2_abab Q.t2_abab Q.t2_abab),
    aug1 X.energy (ein5 L.mdel L.jiab L.klcd L.ebji L.cakm [] Q.g_abab_ovvo Q.l2_abab Q.l2_abab Q.t2_abab Q.t2_aaaa),
    aug1 X.energy (ein5 L.mdel L.jiab L.lkdc L.ebji L.acmk [] Q.g_aaaa_ovvo Q.l2_abab Q.l2_abab Q.t2_abab Q.t2_abab),
    aug1 X.energy (ein5 L.mdel L.jiab L.kldc L.ebji L.acmk [] Q.g_abab_ovvo Q.l2_abab Q.l2_bbbb Q.t2_abab Q.t2_abab),
    aug1 X.energy (ein5 L.dmle L.ijba L.kldc L.ebij L.cakm [] Q.g_abab_voov Q.l2_bbbb Q.l2_aaaa Q.t2_bbbb Q.t2_abab),
    aug1 X.energy (ein5 L.mdel L.ijba L.klcd L.ebij L.cakm [] Q.g_bbbb_ovvo Q.l2_bbbb Q.l2_abab Q.t2_bbbb Q.t2_abab),
    aug1 X.energy (ein5 L.dmle L.ijba L.lkdc L.ebij L.cakm [] Q.g_abab_voov Q.l2_bbbb Q.l2_abab Q.t2_bbbb Q.t2_bbbb),
    aug1 X.energy (ein5 L.mdle L.ijba L.lkcd L.ebij L.camk [] Q.g_abab_ovov Q.l2_bbbb Q.l2_abab Q.t2_bbbb Q.t2_abab),
    aug1 X.energy (ein5 L.mdel L.ijba L.kldc L.ebij L.cakm [] Q.g_bbbb_ovvo Q.l2_bbbb Q.l2_bbbb Q.t2_bbbb Q.t2_bbbb),
    aug1 X.energy (ein5 L.mdej L.ijba L.kldc L.eckl L.baim [] Q.g_aaaa_ovvo Q.l2_aaaa Q.l2_aaaa Q.t2_aaaa Q.t2_aaaa),
    aug1 X.energy (ein5 L.mdej L.ijba L.kldc L.eckl L.baim [] Q.g_aaaa_ovvo Q.l2_aaaa Q.l2_abab Q.t2_abab Q.t2_aaaa),
    aug1 X.energy (ein5 L.mdje L.ijba L.klcd L.cekl L.baim [] Q.g_abab_ovov Q.l2_aaaa Q.l2_abab Q.t2_abab Q.t2_aaaa),
    aug1 X.energy (ein5 L.mdej L.ijba L.lkdc L.eclk L.baim [] Q.g_aaaa_ovvo Q.l2_aaaa Q.l2_abab Q.t2_abab Q.t2_aaaa),
    aug1 X.energy (ein5 L.mdje L.ijba L.lkcd L.celk L.baim [] Q.g_abab_ovov Q.l2_aaaa Q.l2_abab Q.t2_abab Q.t2_aaaa),
    aug1 X.energy (ein5 L.mdje L.ijba L.kldc L.eckl L.baim [] Q.g_abab_ovov Q.l2_aaaa Q.l2_bbbb Q.t2_bbbb Q.t2_aaaa),
    aug1 X.energy (ein5 L.dmej L.ijba L.kldc L.eckl L.baim [] Q.g_abab_vovo Q.l2_abab Q.l2_aaaa Q.t2_aaaa Q.t2_abab),
    aug1 X.energy (ein5 L.dmej L.ijba L.kldc L.eckl L.baim [] Q.g_abab_vovo Q.l2_abab Q.l2_abab Q.t2_abab Q.t2_abab),
    aug1 X.energy (ein5 L.mdej L.ijba L.klcd L.cekl L.baim [] Q.g_bbbb_ovvo Q.l2_abab Q.l2_abab Q.t2_abab Q.t2_abab),
    aug1 X.energy (ein5 L.dmej L.ijba L.lkdc L.eclk L.baim [] Q.g_abab_vovo Q.l2_abab Q.l2_abab Q.t2_abab Q.t2_abab),
    aug1 X.energy (ein5 L.mdej L.ijba L.lkcd L.celk L.baim [] Q.g_bbbb_ovvo Q.l2_abab Q.l2_abab Q.t2_abab Q.t2_abab),
    aug1 X.energy (ein5 L.mdej L.ijba L.kldc L.eckl L.baim [] Q.g_bbbb_ovvo Q.l2_abab Q.l2_bbbb Q.t2_bbbb Q.t2_abab),
    aug1 X.energy (ein5 L.dmej L.ijab L.kldc L.eckl L.abim [] Q.g_abab_vovo Q.l2_abab Q.l2_aaaa Q.t2_aaaa Q.t2_abab),
    aug1 X.energy (ein5 L.dmej L.ijab L.kldc L.eckl L.abim [] Q.g_abab_vovo Q.l2_abab Q.l2_abab Q.t2_abab Q.t2_abab),
    aug1 X.energy (ein5 L.mdej L.ijab L.klcd L.cekl L.abim [] Q.g_bbbb_ovvo Q.l2_abab Q.l2_abab Q.t2_abab Q.t2_abab),
    aug1 X.energy (ein5 L.dmej L.ijab L.lkdc L.eclk L.abim [] Q.g_abab_vovo Q.l2_abab Q.l2_abab Q.t2_abab Q.t2_abab),
    aug1 X.energy (ein5 L.mdej L.ijab L.lkcd L.celk L.abim [] Q.g_bbbb_ovvo Q.l2_abab Q.l2_abab Q.t2_abab Q.t2_abab),
    aug1 X.energy (ein5 L.mdej L.ijab L.kldc L.eckl L.abim [] Q.g_bbbb_ovvo Q.l2_abab Q.l2_bbbb Q.t2_bbbb Q.t2_abab),
    aug1 X.energy (ein5 L.mdej L.jiba L.kldc L.eckl L.bami [] Q.g_aaaa_ovvo Q.l2_abab Q.l2_aaaa Q.t2_aaaa Q.t2_abab),
    aug1 X.energy (ein5 L.mdej L.jiba L.kldc L.eckl L.bami [] Q.g_aaaa_ovvo Q.l2_abab Q.l2_abab Q.t2_abab Q.t2_abab),
    aug1 X.energy (ein5 L.mdje L.jiba L.klcd L.cekl L.bami [] Q.g_abab_ovov Q.l2_abab Q.l2_abab Q.t2_abab Q.t2_abab),
    aug1 X.energy (ein5 L.mdej L.jiba L.lkdc L.eclk L.bami [] Q.g_aaaa_ovvo Q.l2_abab Q.l2_abab Q.t2_abab Q.t2_abab),
    aug1 X.energy (ein5 L.mdje L.jiba L.lkcd L.celk L.bami [] Q.g_abab_ovov Q.l2_abab Q.l2_abab Q.t2_abab Q.t2_abab),
    aug1 X.energy (ein5 L.mdje L.jiba L.kldc L.eckl L.bami [] Q.g_abab_ovov Q.l2_abab Q.l2_bbbb Q.t2_bbbb Q.t2_abab),
    aug1 X.energy (ein5 L.mdej L.jiab L.kldc L.eckl L.abmi [] Q.g_aaaa_ovvo Q.l2_abab Q.l2_aaaa Q.t2_aaaa Q.t2_abab),
    aug1 X.energy (ein5 L.mdej L.jiab L.kldc L.eckl L.abmi [] Q.g_aaaa_ovvo Q.l2_abab Q.l2_abab Q.t2_abab Q.t2_abab),
    aug1 X.energy (ein5 L.mdje L.jiab L.klcd L.cekl L.abmi [] Q.g_abab_ovov Q.l2_abab Q.l2_abab Q.t2_abab Q.t2_abab),
    aug1 X.energy (ein5 L.mdej L.jiab L.lkdc L.eclk L.abmi [] Q.g_aaaa_ovvo Q.l2_abab Q.l2_abab Q.t2_abab Q.t2_abab),
    aug1 X.energy (ein5 L.mdje L.jiab L.lkcd L.celk L.abmi [] Q.g_abab_ovov Q.l2_abab Q.l2_abab Q.t2_abab Q.t2_abab),
    aug1 X.energy (ein5 L.mdje L.jiab L.kldc L.eckl L.abmi [] Q.g_abab_ovov Q.l2_abab Q.l2_bbbb Q.t2_bbbb Q.t2_abab),
    aug1 X.energy (ein5 L.dmej L.ijba L.kldc L.eckl L.baim [] Q.g_abab_vovo Q.l2_bbbb Q.l2_aaaa Q.t2_aaaa Q.t2_bbbb),
    aug1 X.energy (ein5 L.dmej L.ijba L.kldc L.eckl L.baim [] Q.g_abab_vovo Q.l2_bbbb Q.l2_abab Q.t2_abab Q.t2_bbbb),
    aug1 X.energy (ein5 L.mdej L.ijba L.klcd L.cekl L.baim [] Q.g_bbbb_ovvo Q.l2_bbbb Q.l2_abab Q.t2_abab Q.t2_bbbb),
    aug1 X.energy (ein5 L.dmej L.ijba L.lkdc L.eclk L.baim [] Q.g_abab_vovo Q.l2_bbbb Q.l2_abab Q.t2_abab Q.t2_bbbb),
    aug1 X.energy (ein5 L.mdej L.ijba L.lkcd L.celk L.baim [] Q.g_bbbb_ovvo Q.l2_bbbb Q.l2_abab Q.t2_abab Q.t2_bbbb),
    aug1 X.energy (ein5 L.mdej L.ijba L.kldc L.eckl L.baim [] Q.g_bbbb_ovvo Q.l2_bbbb Q.l2_bbbb Q.t2_bbbb Q.t2_bbbb),
    aug1 X.energy (ein5 L.mdej L.ijba L.kldc L.ecil L.bakm [] Q.g_aaaa_ovvo Q.l2_aaaa Q.l2_aaaa Q.t2_aaaa Q.t2_aaaa),
    aug1 X.energy (ein5 L.mdej L.ijba L.kldc L.ecil L.bakm [] Q.g_aaaa_ovvo Q.l2_aaaa Q.l2_abab Q.t2_abab Q.t2_aaaa),
    aug1 X.energy (ein5 L.mdje L.ijba L.klcd L.ceil L.bakm [] Q.g_abab_ovov Q.l2_aaaa Q.l2_abab Q.t2_abab Q.t2_aaaa),
    aug1 X.energy (ein5 L.dmej L.ijba L.kldc L.ecil L.bakm [] Q.g_abab_vovo Q.l2_abab Q.l2_aaaa Q.t2_aaaa Q.t2_abab),
    aug1 X.energy (ein5 L.dmej L.ijba L.kldc L.ecil L.bakm [] Q.g_abab_vovo Q.l2_abab Q.l2_abab Q.t2_abab Q.t2_abab),
    aug1 X.energy (ein5 L.mdej L.ijba L.klcd L.ceil L.bakm [] Q.g_bbbb_ovvo Q.l2_abab Q.l2_abab Q.t2_abab Q.t2_abab),
    aug1 X.energy (ein5 L.mdej L.ijba L.lkcd L.ecil L.bamk [] Q.g_abab_ovvo Q.l2_abab Q.l2_abab Q.t2_aaaa Q.t2_abab),
    aug1 X.energy (ein5 L.mdej L.ijba L.kldc L.ecil L.bamk [] Q.g_abab_ovvo Q.l2_abab Q.l2_bbbb Q.t2_abab Q.t2_abab),
    aug1 X.energy (ein5 L.dmej L.ijab L.kldc L.ecil L.abkm [] Q.g_abab_vovo Q.l2_abab Q.l2_aaaa Q.t2_aaaa Q.t2_abab),
    aug1 X.energy (ein5 L.dmej L.ijab L.kldc L.ecil L.abkm [] Q.g_abab_vovo Q.l2_abab Q.l2_abab Q.t2_abab Q.t2_abab),
    aug1 X.energy (ein5 L.mdej L.ijab L.klcd L.ceil L.abkm [] Q.g_bbbb_ovvo Q.l2_abab Q.l2_abab Q.t2_abab Q.t2_abab),
    aug1 X.energy (ein5 L.mdej L.ijab L.lkcd L.ecil L.abmk [] Q.g_abab_ovvo Q.l2_abab Q.l2_abab Q.t2_aaaa Q.t2_abab),
    aug1 X.energy (ein5 L.mdej L.ijab L.kldc L.ecil L.abmk [] Q.g_abab_ovvo Q.l2_abab Q.l2_bbbb Q.t2_abab Q.t2_abab),
    aug1 X.energy (ein5 L.dmje L.jiba L.kldc L.celi L.bakm [] Q.g_abab_voov Q.l2_abab Q.l2_aaaa Q.t2_abab Q.t2_abab),
    aug1 X.energy (ein5 L.dmje L.jiba L.kldc L.ecil L.bakm [] Q.g_abab_voov Q.l2_abab Q.l2_abab Q.t2_bbbb Q.t2_abab),
    aug1 X.energy (ein5 L.mdej L.jiba L.lkdc L.ecli L.bamk [] Q.g_aaaa_ovvo Q.l2_abab Q.l2_abab Q.t2_abab Q.t2_abab),
    aug1 X.energy (ein5 L.mdje L.jiba L.lkcd L.celi L.bamk [] Q.g_abab_ovov Q.l2_abab Q.l2_abab Q.t2_abab Q.t2_abab),
    aug1 X.energy (ein5 L.mdje L.jiba L.kldc L.ecil L.bamk [] Q.g_abab_ovov Q.l2_abab Q.l2_bbbb Q.t2_bbbb Q.t2_abab),
    aug1 X.energy (ein5 L.dmje L.jiab L.kldc L.celi L.abkm [] Q.g_abab_voov Q.l2_abab Q.l2_aaaa Q.t2_abab Q.t2_abab),
    aug1 X.energy (ein5 L.dmje L.jiab L.kldc L.ecil L.abkm [] Q.g_abab_voov Q.l2_abab Q.l2_abab Q.t2_bbbb Q.t2_abab),
    aug1 X.energy (ein5 L.mdej L.jiab L.lkdc L.ecli L.abmk [] Q.g_aaaa_ovvo Q.l2_abab Q.l2_abab Q.t2_abab Q.t2_abab),
    aug1 X.energy (ein5 L.mdje L.jiab L.lkcd L.celi L.abmk [] Q.g_abab_ovov Q.l2_abab Q.l2_abab Q.t2_abab Q.t2_abab),
    aug1 X.energy (ein5 L.mdje L.jiab L.kldc L.ecil L.abmk [] Q.g_abab_ovov Q.l2_abab Q.l2_bbbb Q.t2_bbbb Q.t2_abab),
    aug1 X.energy (ein5 L.dmej L.ijba L.lkdc L.ecli L.bakm [] Q.g_abab_vovo Q.l2_bbbb Q.l2_abab Q.t2_abab Q.t2_bbbb),
    aug1 X.energy (ein5 L.mdej L.ijba L.lkcd L.celi L.bakm [] Q.g_bbbb_ovvo Q.l2_bbbb Q.l2_abab Q.t2_abab Q.t2_bbbb),
    aug1 X.energy (ein5 L.mdej L.ijba L.kldc L.ecil L.bakm [] Q.g_bbbb_ovvo Q.l2_bbbb Q.l2_bbbb Q.t2_bbbb Q.t2_bbbb),
    aug1 X.energy (ein5 L.mdej L.ijba L.kldc L.ebkl L.caim [] Q.g_aaaa_ovvo Q.l2_aaaa Q.l2_aaaa Q.t2_aaaa Q.t2_aaaa),
    aug1 X.energy (ein5 L.dmje L.ijba L.kldc L.bekl L.acim [] Q.g_abab_voov Q.l2_aaaa Q.l2_abab Q.t2_abab Q.t2_abab),
    aug1 X.energy (ein5 L.mdje L.ijba L.klcd L.bekl L.caim [] Q.g_abab_ovov Q.l2_aaaa Q.l2_abab Q.t2_abab Q.t2_aaaa),
    aug1 X.energy (ein5 L.dmje L.ijba L.lkdc L.belk L.acim [] Q.g_abab_voov Q.l2_aaaa Q.l2_abab Q.t2_abab Q.t2_abab),
    aug1 X.energy (ein5 L.mdje L.ijba L.lkcd L.belk L.caim [] Q.g_abab_ovov Q.l2_aaaa Q.l2_abab Q.t2_abab Q.t2_aaaa),
    aug1 X.energy (ein5 L.dmej L.ijba L.kldc L.ebkl L.caim [] Q.g_abab_vovo Q.l2_abab Q.l2_aaaa Q.t2_aaaa Q.t2_abab),
    aug1 X.energy (ein5 L.mdej L.ijba L.klcd L.bekl L.caim [] Q.g_bbbb_ovvo Q.l2_abab Q.l2_abab Q.t2_abab Q.t2_abab),
    aug1 X.energy (ein5 L.mdej L.ijba L.lkcd L.belk L.caim [] Q.g_bbbb_ovvo Q.l2_abab Q.l2_abab Q.t2_abab Q.t2_abab),
    aug1 X.energy (ein5 L.dmej L.ijab L.kldc L.ebkl L.acim [] Q.g_abab_vovo Q.l2_abab Q.l2_abab Q.t2_abab Q.t2_abab),
    aug1 X.energy (ein5 L.mdej L.ijab L.klcd L.ebkl L.caim [] Q.g_abab_ovvo Q.l2_abab Q.l2_abab Q.t2_abab Q.t2_aaaa),
    aug1 X.energy (ein5 L.dmej L.ijab L.lkdc L.eblk L.acim [] Q.g_abab_vovo Q.l2_abab Q.l2_abab Q.t2_abab Q.t2_abab),
    aug1 X.energy (ein5 L.mdej L.ijab L.lkcd L.eblk L.caim [] Q.g_abab_ovvo Q.l2_abab Q.l2_abab Q.t2_abab Q.t2_aaaa),
    aug1 X.energy (ein5 L.mdej L.ijab L.kldc L.ebkl L.acim [] Q.g_bbbb_ovvo Q.l2_abab Q.l2_bbbb Q.t2_bbbb Q.t2_abab),
    aug1 X.energy (ein5 L.mdej L.jiba L.kldc L.ebkl L.cami [] Q.g_aaaa_ovvo Q.l2_abab Q.l2_aaaa Q.t2_aaaa Q.t2_abab),
    aug1 X.energy (ein5 L.dmje L.jiba L.kldc L.bekl L.caim [] Q.g_abab_voov Q.l2_abab Q.l2_abab Q.t2_abab Q.t2_bbbb),
    aug1 X.energy (ein5 L.mdje L.jiba L.klcd L.bekl L.cami [] Q.g_abab_ovov Q.l2_abab Q.l2_abab Q.t2_abab Q.t2_abab),
    aug1 X.energy (ein5 L.dmje L.jiba L.lkdc L.belk L.caim [] Q.g_abab_voov Q.l2_abab Q.l2_abab Q.t2_abab Q.t2_bbbb),
    aug1 X.energy (ein5 L.mdje L.jiba L.lkcd L.belk L.cami [] Q.g_abab_ovov Q.l2_abab Q.l2_abab Q.t2_abab Q.t2_abab),
    aug1 X.energy (ein5 L.mdej L.jiab L.kldc L.ebkl L.acmi [] Q.g_aaaa_ovvo Q.l2_abab Q.l2_abab Q.t2_abab Q.t2_abab),
    aug1 X.energy (ein5 L.mdej L.jiab L.lkdc L.eblk L.acmi [] Q.g_aaaa_ovvo Q.l2_abab Q.l2_abab Q.t2_abab Q.t2_abab),
    aug1 X.energy (ein5 L.mdje L.jiab L.kldc L.ebkl L.acmi [] Q.g_abab_ovov Q.l2_abab Q.l2_bbbb Q.t2_bbbb Q.t2_abab),
    aug1 X.energy (ein5 L.dmej L.ijba L.kldc L.ebkl L.caim [] Q.g_abab_vovo Q.l2_bbbb Q.l2_abab Q.t2_abab Q.t2_bbbb),
    aug1 X.energy (ein5 L.mdej L.ijba L.klcd L.ebkl L.cami [] Q.g_abab_ovvo Q.l2_bbbb Q.l2_abab Q.t2_abab Q.t2_abab),
    aug1 X.energy (ein5 L.dmej L.ijba L.lkdc L.eblk L.caim [] Q.g_abab_vovo Q.l2_bbbb Q.l2_abab Q.t2_abab Q.t2_bbbb),
    aug1 X.energy (ein5 L.mdej L.ijba L.lkcd L.eblk L.cami [] Q.g_abab_ovvo Q.l2_bbbb Q.l2_abab Q.t2_abab Q.t2_abab),
    aug1 X.energy (ein5 L.mdej L.ijba L.kldc L.ebkl L.caim [] Q.g_bbbb_ovvo Q.l2_bbbb Q.l2_bbbb Q.t2_bbbb Q.t2_bbbb),
    aug1 X.energy (ein5 L.mdej L.ijba L.kldc L.ebil L.cakm [] Q.g_aaaa_ovvo Q.l2_aaaa Q.l2_aaaa Q.t2_aaaa Q.t2_aaaa),
    aug1 X.energy (ein5 L.dmje L.ijba L.kldc L.beil L.ackm [] Q.g_abab_voov Q.l2_aaaa Q.l2_abab Q.t2_abab Q.t2_abab),
    aug1 X.energy (ein5 L.mdje L.ijba L.klcd L.beil L.cakm [] Q.g_abab_ovov Q.l2_aaaa Q.l2_abab Q.t2_abab Q.t2_aaaa),
    aug1 X.energy (ein5 L.mdej L.ijba L.lkdc L.ebil L.acmk [] Q.g_aaaa_ovvo Q.l2_aaaa Q.l2_abab Q.t2_aaaa Q.t2_abab),
    aug1 X.energy (ein5 L.mdje L.ijba L.kldc L.beil L.acmk [] Q.g_abab_ovov Q.l2_aaaa Q.l2_bbbb Q.t2_abab Q.t2_abab),
    aug1 X.energy (ein5 L.dmej L.ijba L.kldc L.ebil L.cakm [] Q.g_abab_vovo Q.l2_abab Q.l2_aaaa Q.t2_aaaa Q.t2_abab),
    aug1 X.energy (ein5 L.mdej L.ijba L.klcd L.beil L.cakm [] Q.g_bbbb_ovvo Q.l2_abab Q.l2_abab Q.t2_abab Q.t2_abab),
    aug1 X.energy (ein5 L.dmej L.ijba L.lkdc L.ebil L.cakm [] Q.g_abab_vovo Q.l2_abab Q.l2_abab Q.t2_aaaa Q.t2_bbbb),
    aug1 X.energy (ein5 L.mdej L.ijba L.lkcd L.ebil L.camk [] Q.g_abab_ovvo Q.l2_abab Q.l2_abab Q.t2_aaaa Q.t2_abab),
    aug1 X.energy (ein5 L.mdej L.ijba L.kldc L.beil L.cakm [] Q.g_bbbb_ovvo Q.l2_abab Q.l2_bbbb Q.t2_abab Q.t2_bbbb),
    aug1 X.energy (ein5 L.dmej L.ijab L.kldc L.ebil L.ackm [] Q.g_abab_vovo Q.l2_abab Q.l2_abab Q.t2_abab Q.t2_abab),
    aug1 X.energy (ein5 L.mdej L.ijab L.klcd L.ebil L.cakm [] Q.g_abab_ovvo Q.l2_abab Q.l2_abab Q.t2_abab Q.t2_aaaa),
    aug1 X.energy (ein5 L.mdej L.ijab L.kldc L.ebil L.acmk [] Q.g_abab_ovvo Q.l2_abab Q.l2_bbbb Q.t2_abab Q.t2_abab),
    aug1 X.energy (ein5 L.dmje L.jiba L.kldc L.beli L.cakm [] Q.g_abab_voov Q.l2_abab Q.l2_aaaa Q.t2_abab Q.t2_abab),
    aug1 X.energy (ein5 L.dmje L.jiba L.lkdc L.beli L.cakm [] Q.g_abab_voov Q.l2_abab Q.l2_abab Q.t2_abab Q.t2_bbbb),
    aug1 X.energy (ein5 L.mdje L.jiba L.lkcd L.beli L.camk [] Q.g_abab_ovov Q.l2_abab Q.l2_abab Q.t2_abab Q.t2_abab),
    aug1 X.energy (ein5 L.mdej L.jiab L.kldc L.ebli L.cakm [] Q.g_aaaa_ovvo Q.l2_abab Q.l2_aaaa Q.t2_abab Q.t2_aaaa),
    aug1 X.energy (ein5 L.dmje L.jiab L.kldc L.ebil L.ackm [] Q.g_abab_voov Q.l2_abab Q.l2_abab Q.t2_bbbb Q.t2_abab),
    aug1 X.energy (ein5 L.mdje L.jiab L.klcd L.ebil L.cakm [] Q.g_abab_ovov Q.l2_abab Q.l2_abab Q.t2_bbbb Q.t2_aaaa),
    aug1 X.energy (ein5 L.mdej L.jiab L.lkdc L.ebli L.acmk [] Q.g_aaaa_ovvo Q.l2_abab Q.l2_abab Q.t2_abab Q.t2_abab),
    aug1 X.energy (ein5 L.mdje L.jiab L.kldc L.ebil L.acmk [] Q.g_abab_ovov Q.l2_abab Q.l2_bbbb Q.t2_bbbb Q.t2_abab),
    aug1 X.energy (ein5 L.dmej L.ijba L.kldc L.ebli L.cakm [] Q.g_abab_vovo Q.l2_bbbb Q.l2_aaaa Q.t2_abab Q.t2_abab),
    aug1 X.energy (ein5 L.mdej L.ijba L.klcd L.ebil L.cakm [] Q.g_bbbb_ovvo Q.l2_bbbb Q.l2_abab Q.t2_bbbb Q.t2_abab),
    aug1 X.energy (ein5 L.dmej L.ijba L.lkdc L.ebli L.cakm [] Q.g_abab_vovo Q.l2_bbbb Q.l2_abab Q.t2_abab Q.t2_bbbb),
    aug1 X.energy (ein5 L.mdej L.ijba L.lkcd L.ebli L.camk [] Q.g_abab_ovvo Q.l2_bbbb Q.l2_abab Q.t2_abab Q.t2_abab),
    aug1 X.energy (ein5 L.mdej L.ijba L.kldc L.ebil L.cakm [] Q.g_bbbb_ovvo Q.l2_bbbb Q.l2_bbbb Q.t2_bbbb Q.t2_bbbb),
    aug1 X.energy (ein5 L.mbel L.ijba L.kldc L.edjk L.caim [] Q.g_aaaa_ovvo Q.l2_aaaa Q.l2_aaaa Q.t2_aaaa Q.t2_aaaa),
    aug1 X.energy (ein5 L.bmel L.ijba L.kldc L.edjk L.acim [] Q.g_abab_vovo Q.l2_aaaa Q.l2_abab Q.t2_aaaa Q.t2_abab),
    aug1 X.energy (ein5 L.bmle L.ijba L.lkdc L.dejk L.acim [] Q.g_abab_voov Q.l2_aaaa Q.l2_abab Q.t2_abab Q.t2_abab),
    aug1 X.energy (ein5 L.mbel L.ijba L.lkcd L.edjk L.caim [] Q.g_aaaa_ovvo Q.l2_aaaa Q.l2_abab Q.t2_abab Q.t2_aaaa),
    aug1 X.energy (ein5 L.bmel L.ijba L.kldc L.edjk L.acim [] Q.g_abab_vovo Q.l2_aaaa Q.l2_bbbb Q.t2_abab Q.t2_abab),
    aug1 X.energy (ein5 L.bmle L.ijba L.kldc L.dekj L.caim [] Q.g_abab_voov Q.l2_abab Q.l2_aaaa Q.t2_abab Q.t2_abab),
    aug1 X.energy (ein5 L.bmel L.ijba L.klcd L.edkj L.caim [] Q.g_abab_vovo Q.l2_abab Q.l2_abab Q.t2_abab Q.t2_abab),
    aug1 X.energy (ein5 L.bmle L.ijba L.lkcd L.edjk L.caim [] Q.g_abab_voov Q.l2_abab Q.l2_abab Q.t2_bbbb Q.t2_abab),
    aug1 X.energy (ein5 L.mble L.ijab L.kldc L.dekj L.caim [] Q.g_abab_ovov Q.l2_abab Q.l2_aaaa Q.t2_abab Q.t2_aaaa),
    aug1 X.energy (ein5 L.mbel L.ijab L.kldc L.dekj L.acim [] Q.g_bbbb_ovvo Q.l2_abab Q.l2_abab Q.t2_abab Q.t2_abab),
    aug1 X.energy (ein5 L.mbel L.ijab L.klcd L.edkj L.caim [] Q.g_abab_ovvo Q.l2_abab Q.l2_abab Q.t2_abab Q.t2_aaaa),
    aug1 X.energy (ein5 L.mble L.ijab L.lkcd L.edjk L.caim [] Q.g_abab_ovov Q.l2_abab Q.l2_abab Q.t2_bbbb Q.t2_aaaa),
    aug1 X.energy (ein5 L.mbel L.ijab L.kldc L.edjk L.acim [] Q.g_bbbb_ovvo Q.l2_abab Q.l2_bbbb Q.t2_bbbb Q.t2_abab),
    aug1 X.energy (ein5 L.mbel L.jiba L.kldc L.edjk L.cami [] Q.g_aaaa_ovvo Q.l2_abab Q.l2_aaaa Q.t2_aaaa Q.t2_abab),
    aug1 X.energy (ein5 L.bmel L.jiba L.kldc L.edjk L.caim [] Q.g_abab_vovo Q.l2_abab Q.l2_abab Q.t2_aaaa Q.t2_bbbb),
    aug1 X.energy (ein5 L.bmle L.jiba L.lkdc L.dejk L.caim [] Q.g_abab_voov Q.l2_abab Q.l2_abab Q.t2_abab Q.t2_bbbb),
    aug1 X.energy (ein5 L.mbel L.jiba L.lkcd L.edjk L.cami [] Q.g_aaaa_ovvo Q.l2_abab Q.l2_abab Q.t2_abab Q.t2_abab),
    aug1 X.energy (ein5 L.bmel L.jiba L.kldc L.edjk L.caim [] Q.g_abab_vovo Q.l2_abab Q.l2_bbbb Q.t2_abab Q.t2_bbbb),
    aug1 X.energy (ein5 L.mbel L.jiab L.kldc L.edjk L.acmi [] Q.g_abab_ovvo Q.l2_abab Q.l2_abab Q.t2_aaaa Q.t2_abab),
    aug1 X.energy (ein5 L.mble L.jiab L.lkdc L.dejk L.acmi [] Q.g_abab_ovov Q.l2_abab Q.l2_abab Q.t2_abab Q.t2_abab),
    aug1 X.energy (ein5 L.mbel L.jiab L.kldc L.edjk L.acmi [] Q.g_abab_ovvo Q.l2_abab Q.l2_bbbb Q.t2_abab Q.t2_abab),
    aug1 X.energy (ein5 L.mble L.ijba L.kldc L.dekj L.cami [] Q.g_abab_ovov Q.l2_bbbb Q.l2_aaaa Q.t2_abab Q.t2_abab),
    aug1 X.energy (ein5 L.mbel L.ijba L.kldc L.dekj L.caim [] Q.g_bbbb_ovvo Q.l2_bbbb Q.l2_abab Q.t2_abab Q.t2_bbbb),
    aug1 X.energy (ein5 L.mbel L.ijba L.klcd L.edkj L.cami [] Q.g_abab_ovvo Q.l2_bbbb Q.l2_abab Q.t2_abab Q.t2_abab),
    aug1 X.energy (ein5 L.mble L.ijba L.lkcd L.edjk L.cami [] Q.g_abab_ovov Q.l2_bbbb Q.l2_abab Q.t2_bbbb Q.t2_abab),
    aug1 X.energy (ein5 L.mbel L.ijba L.kldc L.edjk L.caim [] Q.g_bbbb_ovvo Q.l2_bbbb Q.l2_bbbb Q.t2_bbbb Q.t2_bbbb),
    aug1 X.energy (ein5 L.mbel L.ijba L.kldc L.edij L.cakm [] Q.g_aaaa_ovvo Q.l2_aaaa Q.l2_aaaa Q.t2_aaaa Q.t2_aaaa),
    aug1 X.energy (ein5 L.bmel L.ijba L.kldc L.edij L.ackm [] Q.g_abab_vovo Q.l2_aaaa Q.l2_abab Q.t2_aaaa Q.t2_abab),
    aug1 X.energy (ein5 L.mbel L.ijba L.lkdc L.edij L.acmk [] Q.g_aaaa_ovvo Q.l2_aaaa Q.l2_abab Q.t2_aaaa Q.t2_abab),
    aug1 X.energy (ein5 L.bmle L.ijba L.kldc L.deij L.cakm [] Q.g_abab_voov Q.l2_abab Q.l2_aaaa Q.t2_abab Q.t2_abab),
    aug1 X.energy (ein5 L.bmel L.ijba L.klcd L.edij L.cakm [] Q.g_abab_vovo Q.l2_abab Q.l2_abab Q.t2_abab Q.t2_abab),
    aug1 X.energy (ein5 L.bmle L.ijba L.lkdc L.deij L.cakm [] Q.g_abab_voov Q.l2_abab Q.l2_abab Q.t2_abab Q.t2_bbbb),
    aug1 X.energy (ein5 L.mbel L.ijba L.lkcd L.edij L.camk [] Q.g_aaaa_ovvo Q.l2_abab Q.l2_abab Q.t2_abab Q.t2_abab),
    aug1 X.energy (ein5 L.bmel L.ijba L.kldc L.edij L.cakm [] Q.g_abab_vovo Q.l2_abab Q.l2_bbbb Q.t2_abab Q.t2_bbbb),
    aug1 X.energy (ein5 L.mble L.ijab L.kldc L.deij L.cakm [] Q.g_abab_ovov Q.l2_abab Q.l2_aaaa Q.t2_abab Q.t2_aaaa),
    aug1 X.energy (ein5 L.mbel L.ijab L.kldc L.deij L.ackm [] Q.g_bbbb_ovvo Q.l2_abab Q.l2_abab Q.t2_abab Q.t2_abab),
    aug1 X.energy (ein5 L.mbel L.ijab L.klcd L.edij L.cakm [] Q.g_abab_ovvo Q.l2_abab Q.l2_abab Q.t2_abab Q.t2_aaaa),
    aug1 X.energy (ein5 L.mble L.ijab L.lkdc L.deij L.acmk [] Q.g_abab_ovov Q.l2_abab Q.l2_abab Q.t2_abab Q.t2_abab),
    aug1 X.energy (ein5 L.mbel L.ijab L.kldc L.edij L.acmk [] Q.g_abab_ovvo Q.l2_abab Q.l2_bbbb Q.t2_abab Q.t2_abab),
    aug1 X.energy (ein5 L.bmle L.jiba L.kldc L.deji L.cakm [] Q.g_abab_voov Q.l2_abab Q.l2_aaaa Q.t2_abab Q.t2_abab),
    aug1 X.energy (ein5 L.bmel L.jiba L.klcd L.edji L.cakm [] Q.g_abab_vovo Q.l2_abab Q.l2_abab Q.t2_abab Q.t2_abab),
    aug1 X.energy (ein5 L.bmle L.jiba L.lkdc L.deji L.cakm [] Q.g_abab_voov Q.l2_abab Q.l2_abab Q.t2_abab Q.t2_bbbb),
    aug1 X.energy (ein5 L.mbel L.jiba L.lkcd L.edji L.camk [] Q.g_aaaa_ovvo Q.l2_abab Q.l2_abab Q.t2_abab Q.t2_abab),
    aug1 X.energy (ein5 L.bmel L.jiba L.kldc L.edji L.cakm [] Q.g_abab_vovo Q.l2_abab Q.l2_bbbb Q.t2_abab Q.t2_bbbb),
    aug1 X.energy (ein5 L.mble L.jiab L.kldc L.deji L.cakm [] Q.g_abab_ovov Q.l2_abab Q.l2_aaaa Q.t2_abab Q.t2_aaaa),
    aug1 X.energy (ein5 L.mbel L.jiab L.kldc L.deji L.ackm [] Q.g_bbbb_ovvo Q.l2_abab Q.l2_abab Q.t2_abab Q.t2_abab),
    aug1 X.energy (ein5 L.mbel L.jiab L.klcd L.edji L.cakm [] Q.g_abab_ovvo Q.l2_abab Q.l2_abab Q.t2_abab Q.t2_aaaa),
    aug1 X.energy (ein5 L.mble L.jiab L.lkdc L.deji L.acmk [] Q.g_abab_ovov Q.l2_abab Q.l2_abab Q.t2_abab Q.t2_abab),
    aug1 X.energy (ein5 L.mbel L.jiab L.kldc L.edji L.acmk [] Q.g_abab_ovvo Q.l2_abab Q.l2_bbbb Q.t2_abab Q.t2_abab),
    aug1 X.energy (ein5 L.mbel L.ijba L.klcd L.edij L.cakm [] Q.g_bbbb_ovvo Q.l2_bbbb Q.l2_abab Q.t2_bbbb Q.t2_abab),
    aug1 X.energy (ein5 L.mble L.ijba L.lkcd L.edij L.camk [] Q.g_abab_ovov Q.l2_bbbb Q.l2_abab Q.t2_bbbb Q.t2_abab),
    aug1 X.energy (ein5 L.mbel L.ijba L.kldc L.edij L.cakm [] Q.g_bbbb_ovvo Q.l2_bbbb Q.l2_bbbb Q.t2_bbbb Q.t2_bbbb),
    aug1 X.energy (ein5 L.mbel L.ijba L.kldc L.eajk L.dcim [] Q.g_aaaa_ovvo Q.l2_aaaa Q.l2_aaaa Q.t2_aaaa Q.t2_aaaa),
    aug1 X.energy (ein5 L.bmel L.ijba L.kldc L.eajk L.dcim [] Q.g_abab_vovo Q.l2_aaaa Q.l2_abab Q.t2_aaaa Q.t2_abab),
    aug1 X.energy (ein5 L.bmel L.ijba L.klcd L.eajk L.cdim [] Q.g_abab_vovo Q.l2_aaaa Q.l2_abab Q.t2_aaaa Q.t2_abab),
    aug1 X.energy (ein5 L.bmle L.ijba L.lkdc L.aejk L.dcim [] Q.g_abab_voov Q.l2_aaaa Q.l2_abab Q.t2_abab Q.t2_abab),
    aug1 X.energy (ein5 L.bmle L.ijba L.lkcd L.aejk L.cdim [] Q.g_abab_voov Q.l2_aaaa Q.l2_abab Q.t2_abab Q.t2_abab),
    aug1 X.energy (ein5 L.mbel L.ijba L.kldc L.eakj L.dcim [] Q.g_aaaa_ovvo Q.l2_abab Q.l2_aaaa Q.t2_abab Q.t2_aaaa),
    aug1 X.energy (ein5 L.bmel L.ijba L.kldc L.eakj L.dcim [] Q.g_abab_vovo Q.l2_abab Q.l2_abab Q.t2_abab Q.t2_abab),
    aug1 X.energy (ein5 L.bmel L.ijba L.klcd L.eakj L.cdim [] Q.g_abab_vovo Q.l2_abab Q.l2_abab Q.t2_abab Q.t2_abab),
    aug1 X.energy (ein5 L.bmle L.ijba L.lkdc L.eajk L.dcim [] Q.g_abab_voov Q.l2_abab Q.l2_abab Q.t2_bbbb Q.t2_abab),
    aug1 X.energy (ein5 L.bmle L.ijba L.lkcd L.eajk L.cdim [] Q.g_abab_voov Q.l2_abab Q.l2_abab Q.t2_bbbb Q.t2_abab),
    aug1 X.energy (ein5 L.mble L.ijab L.kldc L.aekj L.dcim [] Q.g_abab_ovov Q.l2_abab Q.l2_aaaa Q.t2_abab Q.t2_aaaa),
    aug1 X.energy (ein5 L.mbel L.ijab L.kldc L.aekj L.dcim [] Q.g_bbbb_ovvo Q.l2_abab Q.l2_abab Q.t2_abab Q.t2_abab),
    aug1 X.energy (ein5 L.mbel L.ijab L.klcd L.aekj L.cdim [] Q.g_bbbb_ovvo Q.l2_abab Q.l2_abab Q.t2_abab Q.t2_abab),
    aug1 X.energy (ein5 L.mbel L.jiba L.lkdc L.eajk L.dcmi [] Q.g_aaaa_ovvo Q.l2_abab Q.l2_abab Q.t2_abab Q.t2_abab),
    aug1 X.energy (ein5 L.mbel L.jiba L.lkcd L.eajk L.cdmi [] Q.g_aaaa_ovvo Q.l2_abab Q.l2_abab Q.t2_abab Q.t2_abab),
    aug1 X.energy (ein5 L.bmel L.jiba L.kldc L.eajk L.dcim [] Q.g_abab_vovo Q.l2_abab Q.l2_bbbb Q.t2_abab Q.t2_bbbb),
    aug1 X.energy (ein5 L.mbel L.jiab L.kldc L.eajk L.dcmi [] Q.g_abab_ovvo Q.l2_abab Q.l2_abab Q.t2_aaaa Q.t2_abab),
    aug1 X.energy (ein5 L.mbel L.jiab L.klcd L.eajk L.cdmi [] Q.g_abab_ovvo Q.l2_abab Q.l2_abab Q.t2_aaaa Q.t2_abab),
    aug1 X.energy (ein5 L.mble L.jiab L.lkdc L.aejk L.dcmi [] Q.g_abab_ovov Q.l2_abab Q.l2_abab Q.t2_abab Q.t2_abab),
    aug1 X.energy (ein5 L.mble L.jiab L.lkcd L.aejk L.cdmi [] Q.g_abab_ovov Q.l2_abab Q.l2_abab Q.t2_abab Q.t2_abab),
    aug1 X.energy (ein5 L.mbel L.jiab L.kldc L.aejk L.dcim [] Q.g_bbbb_ovvo Q.l2_abab Q.l2_bbbb Q.t2_abab Q.t2_bbbb),
    aug1 X.energy (ein5 L.mbel L.ijba L.kldc L.eakj L.dcmi [] Q.g_abab_ovvo Q.l2_bbbb Q.l2_abab Q.t2_abab Q.t2_abab),
    aug1 X.energy (ein5 L.mbel L.ijba L.klcd L.eakj L.cdmi [] Q.g_abab_ovvo Q.l2_bbbb Q.l2_abab Q.t2_abab Q.t2_abab),
    aug1 X.energy (ein5 L.mble L.ijba L.lkdc L.eajk L.dcmi [] Q.g_abab_ovov Q.l2_bbbb Q.l2_abab Q.t2_bbbb Q.t2_abab),
    aug1 X.energy (ein5 L.mble L.ijba L.lkcd L.eajk L.cdmi [] Q.g_abab_ovov Q.l2_bbbb Q.l2_abab Q.t2_bbbb Q.t2_abab),
    aug1 X.energy (ein5 L.mbel L.ijba L.kldc L.eajk L.dcim [] Q.g_bbbb_ovvo Q.l2_bbbb Q.l2_bbbb Q.t2_bbbb Q.t2_bbbb),
    aug1 X.energy (ein5 L.mbel L.ijba L.kldc L.eaij L.dckm [] Q.g_aaaa_ovvo Q.l2_aaaa Q.l2_aaaa Q.t2_aaaa Q.t2_aaaa),
    aug1 X.energy (ein5 L.bmel L.ijba L.kldc L.eaij L.dckm [] Q.g_abab_vovo Q.l2_aaaa Q.l2_abab Q.t2_aaaa Q.t2_abab),
    aug1 X.energy (ein5 L.bmel L.ijba L.klcd L.eaij L.cdkm [] Q.g_abab_vovo Q.l2_aaaa Q.l2_abab Q.t2_aaaa Q.t2_abab),
    aug1 X.energy (ein5 L.mbel L.ijba L.lkdc L.eaij L.dcmk [] Q.g_aaaa_ovvo Q.l2_aaaa Q.l2_abab Q.t2_aaaa Q.t2_abab),
    aug1 X.energy (ein5 L.mbel L.ijba L.lkcd L.eaij L.cdmk [] Q.g_aaaa_ovvo Q.l2_aaaa Q.l2_abab Q.t2_aaaa Q.t2_abab),
    aug1 X.energy (ein5 L.bmel L.ijba L.kldc L.eaij L.dckm [] Q.g_abab_vovo Q.l2_aaaa Q.l2_bbbb Q.t2_aaaa Q.t2_bbbb),
    aug1 X.energy (ein5 L.mbel L.ijba L.kldc L.eaij L.dckm [] Q.g_aaaa_ovvo Q.l2_abab Q.l2_aaaa Q.t2_abab Q.t2_aaaa),
    aug1 X.energy (ein5 L.bmel L.ijba L.kldc L.eaij L.dckm [] Q.g_abab_vovo Q.l2_abab Q.l2_abab Q.t2_abab Q.t2_abab),
    aug1 X.energy (ein5 L.bmel L.ijba L.klcd L.eaij L.cdkm [] Q.g_abab_vovo Q.l2_abab Q.l2_abab Q.t2_abab Q.t2_abab),
    aug1 X.energy (ein5 L.mbel L.ijba L.lkdc L.eaij L.dcmk [] Q.g_aaaa_ovvo Q.l2_abab Q.l2_abab Q.t2_abab Q.t2_abab),
    aug1 X.energy (ein5 L.mbel L.ijba L.lkcd L.eaij L.cdmk [] Q.g_aaaa_ovvo Q.l2_abab Q.l2_abab Q.t2_abab Q.t2_abab),
    aug1 X.energy (ein5 L.bmel L.ijba L.kldc L.eaij L.dckm [] Q.g_abab_vovo Q.l2_abab Q.l2_bbbb Q.t2_abab Q.t2_bbbb),
    aug1 X.energy (ein5 L.mble L.ijab L.kldc L.aeij L.dckm [] Q.g_abab_ovov Q.l2_abab Q.l2_aaaa Q.t2_abab Q.t2_aaaa),
    aug1 X.energy (ein5 L.mbel L.ijab L.kldc L.aeij L.dckm [] Q.g_bbbb_ovvo Q.l2_abab Q.l2_abab Q.t2_abab Q.t2_abab),
    aug1 X.energy (ein5 L.mbel L.ijab L.klcd L.aeij L.cdkm [] Q.g_bbbb_ovvo Q.l2_abab Q.l2_abab Q.t2_abab Q.t2_abab),
    aug1 X.energy (ein5 L.mble L.ijab L.lkdc L.aeij L.dcmk [] Q.g_abab_ovov Q.l2_abab Q.l2_abab Q.t2_abab Q.t2_abab),
    aug1 X.energy (ein5 L.mble L.ijab L.lkcd L.aeij L.cdmk [] Q.g_abab_ovov Q.l2_abab Q.l2_abab Q.t2_abab Q.t2_abab),
    aug1 X.energy (ein5 L.mbel L.ijab L.kldc L.aeij L.dckm [] Q.g_bbbb_ovvo Q.l2_abab Q.l2_bbbb Q.t2_abab Q.t2_bbbb),
    aug1 X.energy (ein5 L.mbel L.jiba L.kldc L.eaji L.dckm [] Q.g_aaaa_ovvo Q.l2_abab Q.l2_aaaa Q.t2_abab Q.t2_aaaa),
    aug1 X.energy (ein5 L.bmel L.jiba L.kldc L.eaji L.dckm [] Q.g_abab_vovo Q.l2_abab Q.l2_abab Q.t2_abab Q.t2_abab),
    aug1 X.energy (ein5 L.bmel L.jiba L.klcd L.eaji L.cdkm [] Q.g_abab_vovo Q.l2_abab Q.l2_abab Q.t2_abab Q.t2_abab),
    aug1 X.energy (ein5 L.mbel L.jiba L.lkdc L.eaji L.dcmk [] Q.g_aaaa_ovvo Q.l2_abab Q.l2_abab Q.t2_abab Q.t2_abab),
    aug1 X.energy (ein5 L.mbel L.jiba L.lkcd L.eaji L.cdmk [] Q.g_aaaa_ovvo Q.l2_abab Q.l2_abab Q.t2_abab Q.t2_abab),
    aug1 X.energy (ein5 L.bmel L.jiba L.kldc L.eaji L.dckm [] Q.g_abab_vovo Q.l2_abab Q.l2_bbbb Q.t2_abab Q.t2_bbbb),
    aug1 X.energy (ein5 L.mble L.jiab L.kldc L.aeji L.dckm [] Q.g_abab_ovov Q.l2_abab Q.l2_aaaa Q.t2_abab Q.t2_aaaa),
    aug1 X.energy (ein5 L.mbel L.jiab L.kldc L.aeji L.dckm [] Q.g_bbbb_ovvo Q.l2_abab Q.l2_abab Q.t2_abab Q.t2_abab),
    aug1 X.energy (ein5 L.mbel L.jiab L.klcd L.aeji L.cdkm [] Q.g_bbbb_ovvo Q.l2_abab Q.l2_abab Q.t2_abab Q.t2_abab),
    aug1 X.energy (ein5 L.mble L.jiab L.lkdc L.aeji L.dcmk [] Q.g_abab_ovov Q.l2_abab Q.l2_abab Q.t2_abab Q.t2_abab),
    aug1 X.energy (ein5 L.mble L.jiab L.lkcd L.aeji L.cdmk [] Q.g_abab_ovov Q.l2_abab Q.l2_abab Q.t2_abab Q.t2_abab),
    aug1 X.energy (ein5 L.mbel L.jiab L.kldc L.aeji L.dckm [] Q.g_bbbb_ovvo Q.l2_abab Q.l2_bbbb Q.t2_abab Q.t2_bbbb),
    aug1 X.energy (ein5 L.mble L.ijba L.kldc L.eaij L.dckm [] Q.g_abab_ovov Q.l2_bbbb Q.l2_aaaa Q.t2_bbbb Q.t2_aaaa),
    aug1 X.energy (ein5 L.mbel L.ijba L.kldc L.eaij L.dckm [] Q.g_bbbb_ovvo Q.l2_bbbb Q.l2_abab Q.t2_bbbb Q.t2_abab),
    aug1 X.energy (ein5 L.mbel L.ijba L.klcd L.eaij L.cdkm [] Q.g_bbbb_ovvo Q.l2_bbbb Q.l2_abab Q.t2_bbbb Q.t2_abab),
    aug1 X.energy (ein5 L.mble L.ijba L.lkdc L.eaij L.dcmk [] Q.g_abab_ovov Q.l2_bbbb Q.l2_abab Q.t2_bbbb Q.t2_abab),
    aug1 X.energy (ein5 L.mble L.ijba L.lkcd L.eaij L.cdmk [] Q.g_abab_ovov Q.l2_bbbb Q.l2_abab Q.t2_bbbb Q.t2_abab),
    aug1 X.energy (ein5 L.mbel L.ijba L.kldc L.eaij L.dckm [] Q.g_bbbb_ovvo Q.l2_bbbb Q.l2_bbbb Q.t2_bbbb Q.t2_bbbb),
    aug1 X.energy (ein5 L.mbej L.ijba L.kldc L.edkl L.caim [] Q.g_aaaa_ovvo Q.l2_aaaa Q.l2_aaaa Q.t2_aaaa Q.t2_aaaa),
    aug1 X.energy (ein5 L.bmje L.ijba L.kldc L.dekl L.acim [] Q.g_abab_voov Q.l2_aaaa Q.l2_abab Q.t2_abab Q.t2_abab),
    aug1 X.energy (ein5 L.mbej L.ijba L.klcd L.edkl L.caim [] Q.g_aaaa_ovvo Q.l2_aaaa Q.l2_abab Q.t2_abab Q.t2_aaaa),
    aug1 X.energy (ein5 L.bmje L.ijba L.lkdc L.delk L.acim [] Q.g_abab_voov Q.l2_aaaa Q.l2_abab Q.t2_abab Q.t2_abab),
    aug1 X.energy (ein5 L.mbej L.ijba L.lkcd L.edlk L.caim [] Q.g_aaaa_ovvo Q.l2_aaaa Q.l2_abab Q.t2_abab Q.t2_aaaa),
    aug1 X.energy (ein5 L.bmje L.ijba L.kldc L.edkl L.acim [] Q.g_abab_voov Q.l2_aaaa Q.l2_bbbb Q.t2_bbbb Q.t2_abab),
    aug1 X.energy (ein5 L.bmej L.ijba L.kldc L.edkl L.caim [] Q.g_abab_vovo Q.l2_abab Q.l2_aaaa Q.t2_aaaa Q.t2_abab),
    aug1 X.energy (ein5 L.bmej L.ijba L.klcd L.edkl L.caim [] Q.g_abab_vovo Q.l2_abab Q.l2_abab Q.t2_abab Q.t2_abab),
    aug1 X.energy (ein5 L.bmej L.ijba L.lkcd L.edlk L.caim [] Q.g_abab_vovo Q.l2_abab Q.l2_abab Q.t2_abab Q.t2_abab),
    aug1 X.energy (ein5 L.mbej L.ijab L.kldc L.edkl L.caim [] Q.g_abab_ovvo Q.l2_abab Q.l2_aaaa Q.t2_aaaa Q.t2_aaaa),
    aug1 X.energy (ein5 L.mbej L.ijab L.kldc L.dekl L.acim [] Q.g_bbbb_ovvo Q.l2_abab Q.l2_abab Q.t2_abab Q.t2_abab),
    aug1 X.energy (ein5 L.mbej L.ijab L.klcd L.edkl L.caim [] Q.g_abab_ovvo Q.l2_abab Q.l2_abab Q.t2_abab Q.t2_aaaa),
    aug1 X.energy (ein5 L.mbej L.ijab L.lkdc L.delk L.acim [] Q.g_bbbb_ovvo Q.l2_abab Q.l2_abab Q.t2_abab Q.t2_abab),
    aug1 X.energy (ein5 L.mbej L.ijab L.lkcd L.edlk L.caim [] Q.g_abab_ovvo Q.l2_abab Q.l2_abab Q.t2_abab Q.t2_aaaa),
    aug1 X.energy (ein5 L.mbej L.ijab L.kldc L.edkl L.acim [] Q.g_bbbb_ovvo Q.l2_abab Q.l2_bbbb Q.t2_bbbb Q.t2_abab),
    aug1 X.energy (ein5 L.mbej L.jiba L.kldc L.edkl L.cami [] Q.g_aaaa_ovvo Q.l2_abab Q.l2_aaaa Q.t2_aaaa Q.t2_abab),
    aug1 X.energy (ein5 L.bmje L.jiba L.kldc L.dekl L.caim [] Q.g_abab_voov Q.l2_abab Q.l2_abab Q.t2_abab Q.t2_bbbb),
    aug1 X.energy (ein5 L.mbej L.jiba L.klcd L.edkl L.cami [] Q.g_aaaa_ovvo Q.l2_abab Q.l2_abab Q.t2_abab Q.t2_abab),
    aug1 X.energy (ein5 L.bmje L.jiba L.lkdc L.delk L.caim [] Q.g_abab_voov Q.l2_abab Q.l2_abab Q.t2_abab Q.t2_bbbb),
    aug1 X.energy (ein5 L.mbej L.jiba L.lkcd L.edlk L.cami [] Q.g_aaaa_ovvo Q.l2_abab Q.l2_abab Q.t2_abab Q.t2_abab),
    aug1 X.energy (ein5 L.bmje L.jiba L.kldc L.edkl L.caim [] Q.g_abab_voov Q.l2_abab Q.l2_bbbb Q.t2_bbbb Q.t2_bbbb),
    aug1 X.energy (ein5 L.mbje L.jiab L.kldc L.dekl L.acmi [] Q.g_abab_ovov Q.l2_abab Q.l2_abab Q.t2_abab Q.t2_abab),
    aug1 X.energy (ein5 L.mbje L.jiab L.lkdc L.delk L.acmi [] Q.g_abab_ovov Q.l2_abab Q.l2_abab Q.t2_abab Q.t2_abab),
    aug1 X.energy (ein5 L.mbje L.jiab L.kldc L.edkl L.acmi [] Q.g_abab_ovov Q.l2_abab Q.l2_bbbb Q.t2_bbbb Q.t2_abab),
    aug1 X.energy (ein5 L.mbej L.ijba L.kldc L.edkl L.cami [] Q.g_abab_ovvo Q.l2_bbbb Q.l2_aaaa Q.t2_aaaa Q.t2_abab),
    aug1 X.energy (ein5 L.mbej L.ijba L.kldc L.dekl L.caim [] Q.g_bbbb_ovvo Q.l2_bbbb Q.l2_abab Q.t2_abab Q.t2_bbbb),
    aug1 X.energy (ein5 L.mbej L.ijba L.klcd L.edkl L.cami [] Q.g_abab_ovvo Q.l2_bbbb Q.l2_abab Q.t2_abab Q.t2_abab),
    aug1 X.energy (ein5 L.mbej L.ijba L.lkdc L.delk L.caim [] Q.g_bbbb_ovvo Q.l2_bbbb Q.l2_abab Q.t2_abab Q.t2_bbbb),
    aug1 X.energy (ein5 L.mbej L.ijba L.lkcd L.edlk L.cami [] Q.g_abab_ovvo Q.l2_bbbb Q.l2_abab Q.t2_abab Q.t2_abab),
    aug1 X.energy (ein5 L.mbej L.ijba L.kldc L.edkl L.caim [] Q.g_bbbb_ovvo Q.l2_bbbb Q.l2_bbbb Q.t2_bbbb Q.t2_bbbb),
    aug1 X.energy (ein5 L.mbej L.ijba L.kldc L.edil L.cakm [] Q.g_aaaa_ovvo Q.l2_aaaa Q.l2_aaaa Q.t2_aaaa Q.t2_aaaa),
    aug1 X.energy (ein5 L.bmje L.ijba L.kldc L.deil L.ackm [] Q.g_abab_voov Q.l2_aaaa Q.l2_abab Q.t2_abab Q.t2_abab),
    aug1 X.energy (ein5 L.mbej L.ijba L.klcd L.edil L.cakm [] Q.g_aaaa_ovvo Q.l2_aaaa Q.l2_abab Q.t2_abab Q.t2_aaaa),
    aug1 X.energy (ein5 L.mbej L.ijba L.lkdc L.edil L.acmk [] Q.g_aaaa_ovvo Q.l2_aaaa Q.l2_abab Q.t2_aaaa Q.t2_abab),
    aug1 X.energy (ein5 L.mbej L.ijba L.kldc L.edil L.acmk [] Q.g_aaaa_ovvo Q.l2_aaaa Q.l2_bbbb Q.t2_abab Q.t2_abab),
    aug1 X.energy (ein5 L.bmej L.ijba L.kldc L.edil L.cakm [] Q.g_abab_vovo Q.l2_abab Q.l2_aaaa Q.t2_aaaa Q.t2_abab),
    aug1 X.energy (ein5 L.bmej L.ijba L.klcd L.edil L.cakm [] Q.g_abab_vovo Q.l2_abab Q.l2_abab Q.t2_abab Q.t2_abab),
    aug1 X.energy (ein5 L.bmej L.ijba L.lkdc L.edil L.cakm [] Q.g_abab_vovo Q.l2_abab Q.l2_abab Q.t2_aaaa Q.t2_bbbb),
    aug1 X.energy (ein5 L.bmej L.ijba L.kldc L.edil L.cakm [] Q.g_abab_vovo Q.l2_abab Q.l2_bbbb Q.t2_abab Q.t2_bbbb),
    aug1 X.energy (ein5 L.mbej L.ijab L.kldc L.edil L.cakm [] Q.g_abab_ovvo Q.l2_abab Q.l2_aaaa Q.t2_aaaa Q.t2_aaaa),
    aug1 X.energy (ein5 L.mbej L.ijab L.kldc L.deil L.ackm [] Q.g_bbbb_ovvo Q.l2_abab Q.l2_abab Q.t2_abab Q.t2_abab),
    aug1 X.energy (ein5 L.mbej L.ijab L.klcd L.edil L.cakm [] Q.g_abab_ovvo Q.l2_abab Q.l2_abab Q.t2_abab Q.t2_aaaa),
    aug1 X.energy (ein5 L.mbej L.ijab L.lkdc L.edil L.acmk [] Q.g_abab_ovvo Q.l2_abab Q.l2_abab Q.t2_aaaa Q.t2_abab),
    aug1 X.energy (ein5 L.mbej L.ijab L.kldc L.edil L.acmk [] Q.g_abab_ovvo Q.l2_abab Q.l2_bbbb Q.t2_abab Q.t2_abab),
    aug1 X.energy (ein5 L.bmje L.jiba L.kldc L.deli L.cakm [] Q.g_abab_voov Q.l2_abab Q.l2_aaaa Q.t2_abab Q.t2_abab),
    aug1 X.energy (ein5 L.bmje L.jiba L.klcd L.edil L.cakm [] Q.g_abab_voov Q.l2_abab Q.l2_abab Q.t2_bbbb Q.t2_abab),
    aug1 X.energy (ein5 L.bmje L.jiba L.lkdc L.deli L.cakm [] Q.g_abab_voov Q.l2_abab Q.l2_abab Q.t2_abab Q.t2_bbbb),
    aug1 X.energy (ein5 L.mbej L.jiba L.lkcd L.edli L.camk [] Q.g_aaaa_ovvo Q.l2_abab Q.l2_abab Q.t2_abab Q.t2_abab),
    aug1 X.energy (ein5 L.bmje L.jiba L.kldc L.edil L.cakm [] Q.g_abab_voov Q.l2_abab Q.l2_bbbb Q.t2_bbbb Q.t2_bbbb),
    aug1 X.energy (ein5 L.mbje L.jiab L.kldc L.deli L.cakm [] Q.g_abab_ovov Q.l2_abab Q.l2_aaaa Q.t2_abab Q.t2_aaaa),
    aug1 X.energy (ein5 L.mbje L.jiab L.klcd L.edil L.cakm [] Q.g_abab_ovov Q.l2_abab Q.l2_abab Q.t2_bbbb Q.t2_aaaa),
    aug1 X.energy (ein5 L.mbje L.jiab L.lkdc L.deli L.acmk [] Q.g_abab_ovov Q.l2_abab Q.l2_abab Q.t2_abab Q.t2_abab),
    aug1 X.energy (ein5 L.mbje L.jiab L.kldc L.edil L.acmk [] Q.g_abab_ovov Q.l2_abab Q.l2_bbbb Q.t2_bbbb Q.t2_abab),
    aug1 X.energy (ein5 L.mbej L.ijba L.kldc L.deli L.cakm [] Q.g_bbbb_ovvo Q.l2_bbbb Q.l2_aaaa Q.t2_abab Q.t2_abab),
    aug1 X.energy (ein5 L.mbej L.ijba L.klcd L.edil L.cakm [] Q.g_bbbb_ovvo Q.l2_bbbb Q.l2_abab Q.t2_bbbb Q.t2_abab),
    aug1 X.energy (ein5 L.mbej L.ijba L.lkdc L.deli L.cakm [] Q.g_bbbb_ovvo Q.l2_bbbb Q.l2_abab Q.t2_abab Q.t2_bbbb),
    aug1 X.energy (ein5 L.mbej L.ijba L.lkcd L.edli L.camk [] Q.g_abab_ovvo Q.l2_bbbb Q.l2_abab Q.t2_abab Q.t2_abab),
    aug1 X.energy (ein5 L.mbej L.ijba L.kldc L.edil L.cakm [] Q.g_bbbb_ovvo Q.l2_bbbb Q.l2_bbbb Q.t2_bbbb Q.t2_bbbb),
    aug1 X.energy (ein5 L.mbej L.ijba L.kldc L.eakl L.dcim [] Q.g_aaaa_ovvo Q.l2_aaaa Q.l2_aaaa Q.t2_aaaa Q.t2_aaaa),
    aug1 X.energy (ein5 L.bmje L.ijba L.kldc L.aekl L.dcim [] Q.g_abab_voov Q.l2_aaaa Q.l2_abab Q.t2_abab Q.t2_abab),
    aug1 X.energy (ein5 L.bmje L.ijba L.klcd L.aekl L.cdim [] Q.g_abab_voov Q.l2_aaaa Q.l2_abab Q.t2_abab Q.t2_abab),
    aug1 X.energy (ein5 L.bmje L.ijba L.lkdc L.aelk L.dcim [] Q.g_abab_voov Q.l2_aaaa Q.l2_abab Q.t2_abab Q.t2_abab),
    aug1 X.energy (ein5 L.bmje L.ijba L.lkcd L.aelk L.cdim [] Q.g_abab_voov Q.l2_aaaa Q.l2_abab Q.t2_abab Q.t2_abab),
    aug1 X.energy (ein5 L.bmej L.ijba L.kldc L.eakl L.dcim [] Q.g_abab_vovo Q.l2_abab Q.l2_abab Q.t2_abab Q.t2_abab),
    aug1 X.energy (ein5 L.bmej L.ijba L.klcd L.eakl L.cdim [] Q.g_abab_vovo Q.l2_abab Q.l2_abab Q.t2_abab Q.t2_abab),
    aug1 X.energy (ein5 L.bmej L.ijba L.lkdc L.ealk L.dcim [] Q.g_abab_vovo Q.l2_abab Q.l2_abab Q.t2_abab Q.t2_abab),
    aug1 X.energy (ein5 L.bmej L.ijba L.lkcd L.ealk L.cdim [] Q.g_abab_vovo Q.l2_abab Q.l2_abab Q.t2_abab Q.t2_abab),
    aug1 X.energy (ein5 L.mbej L.ijab L.kldc L.eakl L.dcim [] Q.g_abab_ovvo Q.l2_abab Q.l2_aaaa Q.t2_aaaa Q.t2_aaaa),
    aug1 X.energy (ein5 L.mbej L.ijab L.kldc L.aekl L.dcim [] Q.g_bbbb_ovvo Q.l2_abab Q.l2_abab Q.t2_abab Q.t2_abab),
    aug1 X.energy (ein5 L.mbej L.ijab L.klcd L.aekl L.cdim [] Q.g_bbbb_ovvo Q.l2_abab Q.l2_abab Q.t2_abab Q.t2_abab),
    aug1 X.energy (ein5 L.mbej L.ijab L.lkdc L.aelk L.dcim [] Q.g_bbbb_ovvo Q.l2_abab Q.l2_abab Q.t2_abab Q.t2_abab),
    aug1 X.energy (ein5 L.mbej L.ijab L.lkcd L.aelk L.cdim [] Q.g_bbbb_ovvo Q.l2_abab Q.l2_abab Q.t2_abab Q.t2_abab),
    aug1 X.energy (ein5 L.mbej L.jiba L.kldc L.eakl L.dcmi [] Q.g_aaaa_ovvo Q.l2_abab Q.l2_abab Q.t2_abab Q.t2_abab),
    aug1 X.energy (ein5 L.mbej L.jiba L.klcd L.eakl L.cdmi [] Q.g_aaaa_ovvo Q.l2_abab Q.l2_abab Q.t2_abab Q.t2_abab),
    aug1 X.energy (ein5 L.mbej L.jiba L.lkdc L.ealk L.dcmi [] Q.g_aaaa_ovvo Q.l2_abab Q.l2_abab Q.t2_abab Q.t2_abab),
    aug1 X.energy (ein5 L.mbej L.jiba L.lkcd L.ealk L.cdmi [] Q.g_aaaa_ovvo Q.l2_abab Q.l2_abab Q.t2_abab Q.t2_abab),
    aug1 X.energy (ein5 L.bmje L.jiba L.kldc L.eakl L.dcim [] Q.g_abab_voov Q.l2_abab Q.l2_bbbb Q.t2_bbbb Q.t2_bbbb),
    aug1 X.energy (ein5 L.mbje L.jiab L.kldc L.aekl L.dcmi [] Q.g_abab_ovov Q.l2_abab Q.l2_abab Q.t2_abab Q.t2_abab),
    aug1 X.energy (ein5 L.mbje L.jiab L.klcd L.aekl L.cdmi [] Q.g_abab_ovov Q.l2_abab Q.l2_abab Q.t2_abab Q.t2_abab),
    aug1 X.energy (ein5 L.mbje L.jiab L.lkdc L.aelk L.dcmi [] Q.g_abab_ovov Q.l2_abab Q.l2_abab Q.t2_abab Q.t2_abab),
    aug1 X.energy (ein5 L.mbje L.jiab L.lkcd L.aelk L.cdmi [] Q.g_abab_ovov Q.l2_abab Q.l2_abab Q.t2_abab Q.t2_abab),
    aug1 X.energy (ein5 L.mbej L.ijba L.kldc L.eakl L.dcmi [] Q.g_abab_ovvo Q.l2_bbbb Q.l2_abab Q.t2_abab Q.t2_abab),
    aug1 X.energy (ein5 L.mbej L.ijba L.klcd L.eakl L.cdmi [] Q.g_abab_ovvo Q.l2_bbbb Q.l2_abab Q.t2_abab Q.t2_abab),
    aug1 X.energy (ein5 L.mbej L.ijba L.lkdc L.ealk L.dcmi [] Q.g_abab_ovvo Q.l2_bbbb Q.l2_abab Q.t2_abab Q.t2_abab),
    aug1 X.energy (ein5 L.mbej L.ijba L.lkcd L.ealk L.cdmi [] Q.g_abab_ovvo Q.l2_bbbb Q.l2_abab Q.t2_abab Q.t2_abab),
    aug1 X.energy (ein5 L.mbej L.ijba L.kldc L.eakl L.dcim [] Q.g_bbbb_ovvo Q.l2_bbbb Q.l2_bbbb Q.t2_bbbb Q.t2_bbbb),
    aug1 X.energy (ein5 L.mbej L.ijba L.kldc L.eail L.dckm [] Q.g_aaaa_ovvo Q.l2_aaaa Q.l2_aaaa Q.t2_aaaa Q.t2_aaaa),
    aug1 X.energy (ein5 L.bmje L.ijba L.kldc L.aeil L.dckm [] Q.g_abab_voov Q.l2_aaaa Q.l2_abab Q.t2_abab Q.t2_abab),
    aug1 X.energy (ein5 L.bmje L.ijba L.klcd L.aeil L.cdkm [] Q.g_abab_voov Q.l2_aaaa Q.l2_abab Q.t2_abab Q.t2_abab),
    aug1 X.energy (ein5 L.mbej L.ijba L.lkdc L.eail L.dcmk [] Q.g_aaaa_ovvo Q.l2_aaaa Q.l2_abab Q.t2_aaaa Q.t2_abab),
    aug1 X.energy (ein5 L.mbej L.ijba L.lkcd L.eail L.cdmk [] Q.g_aaaa_ovvo Q.l2_aaaa Q.l2_abab Q.t2_aaaa Q.t2_abab),
    aug1 X.energy (ein5 L.bmje L.ijba L.kldc L.aeil L.dckm [] Q.g_abab_voov Q.l2_aaaa Q.l2_bbbb Q.t2_abab Q.t2_bbbb),
    aug1 X.energy (ein5 L.bmej L.ijba L.kldc L.eail L.dckm [] Q.g_abab_vovo Q.l2_abab Q.l2_abab Q.t2_abab Q.t2_abab),
    aug1 X.energy (ein5 L.bmej L.ijba L.klcd L.eail L.cdkm [] Q.g_abab_vovo Q.l2_abab Q.l2_abab Q.t2_abab Q.t2_abab),
    aug1 X.energy (ein5 L.bmej L.ijba L.kldc L.eail L.dckm [] Q.g_abab_vovo Q.l2_abab Q.l2_bbbb Q.t2_abab Q.t2_bbbb),
    aug1 X.energy (ein5 L.mbej L.ijab L.kldc L.eail L.dckm [] Q.g_abab_ovvo Q.l2_abab Q.l2_aaaa Q.t2_aaaa Q.t2_aaaa),
    aug1 X.energy (ein5 L.mbej L.ijab L.kldc L.aeil L.dckm [] Q.g_bbbb_ovvo Q.l2_abab Q.l2_abab Q.t2_abab Q.t2_abab),
    aug1 X.energy (ein5 L.mbej L.ijab L.klcd L.aeil L.cdkm [] Q.g_bbbb_ovvo Q.l2_abab Q.l2_abab Q.t2_abab Q.t2_abab),
    aug1 X.energy (ein5 L.mbej L.ijab L.lkdc L.eail L.dcmk [] Q.g_abab_ovvo Q.l2_abab Q.l2_abab Q.t2_aaaa Q.t2_abab),
    aug1 X.energy (ein5 L.mbej L.ijab L.lkcd L.eail L.cdmk [] Q.g_abab_ovvo Q.l2_abab Q.l2_abab Q.t2_aaaa Q.t2_abab),
    aug1 X.energy (ein5 L.mbej L.ijab L.kldc L.aeil L.dckm [] Q.g_bbbb_ovvo Q.l2_abab Q.l2_bbbb Q.t2_abab Q.t2_bbbb),
    aug1 X.energy (ein5 L.mbej L.jiba L.kldc L.eali L.dckm [] Q.g_aaaa_ovvo Q.l2_abab Q.l2_aaaa Q.t2_abab Q.t2_aaaa),
    aug1 X.energy (ein5 L.bmje L.jiba L.kldc L.eail L.dckm [] Q.g_abab_voov Q.l2_abab Q.l2_abab Q.t2_bbbb Q.t2_abab),
    aug1 X.energy (ein5 L.bmje L.jiba L.klcd L.eail L.cdkm [] Q.g_abab_voov Q.l2_abab Q.l2_abab Q.t2_bbbb Q.t2_abab),
    aug1 X.energy (ein5 L.mbej L.jiba L.lkdc L.eali L.dcmk [] Q.g_aaaa_ovvo Q.l2_abab Q.l2_abab Q.t2_abab Q.t2_abab),
    aug1 X.energy (ein5 L.mbej L.jiba L.lkcd L.eali L.cdmk [] Q.g_aaaa_ovvo Q.l2_abab Q.l2_abab Q.t2_abab Q.t2_abab),
    aug1 X.energy (ein5 L.bmje L.jiba L.kldc L.eail L.dckm [] Q.g_abab_voov Q.l2_abab Q.l2_bbbb Q.t2_bbbb Q.t2_bbbb),
    aug1 X.energy (ein5 L.mbje L.jiab L.kldc L.aeli L.dckm [] Q.g_abab_ovov Q.l2_abab Q.l2_aaaa Q.t2_abab Q.t2_aaaa),
    aug1 X.energy (ein5 L.mbje L.jiab L.lkdc L.aeli L.dcmk [] Q.g_abab_ovov Q.l2_abab Q.l2_abab Q.t2_abab Q.t2_abab),
    aug1 X.energy (ein5 L.mbje L.jiab L.lkcd L.aeli L.cdmk [] Q.g_abab_ovov Q.l2_abab Q.l2_abab Q.t2_abab Q.t2_abab),
    aug1 X.energy (ein5 L.mbej L.ijba L.kldc L.eali L.dckm [] Q.g_abab_ovvo Q.l2_bbbb Q.l2_aaaa Q.t2_abab Q.t2_aaaa),
    aug1 X.energy (ein5 L.mbej L.ijba L.kldc L.eail L.dckm [] Q.g_bbbb_ovvo Q.l2_bbbb Q.l2_abab Q.t2_bbbb Q.t2_abab),
    aug1 X.energy (ein5 L.mbej L.ijba L.klcd L.eail L.cdkm [] Q.g_bbbb_ovvo Q.l2_bbbb Q.l2_abab Q.t2_bbbb Q.t2_abab),
    aug1 X.energy (ein5 L.mbej L.ijba L.lkdc L.eali L.dcmk [] Q.g_abab_ovvo Q.l2_bbbb Q.l2_abab Q.t2_abab Q.t2_abab),
    aug1 X.energy (ein5 L.mbej L.ijba L.lkcd L.eali L.cdmk [] Q.g_abab_ovvo Q.l2_bbbb Q.l2_abab Q.t2_abab Q.t2_abab),
    aug1 X.energy (ein5 L.mbej L.ijba L.kldc L.eail L.dckm [] Q.g_bbbb_ovvo Q.l2_bbbb Q.l2_bbbb Q.t2_bbbb Q.t2_bbbb),
    aug1 X.energy (ein5 L.dcef L.ijba L.kldc L.ebkl L.faij [] Q.g_aaaa_vvvv Q.l2_aaaa Q.l2_aaaa Q.t2_aaaa Q.t2_aaaa),
    aug1 X.energy (ein5 L.dcfe L.ijba L.kldc L.bekl L.faij [] Q.g_abab_vvvv Q.l2_aaaa Q.l2_abab Q.t2_abab Q.t2_aaaa),
    aug1 X.energy (ein5 L.cdfe L.ijba L.klcd L.bekl L.faij [] Q.g_abab_vvvv Q.l2_aaaa Q.l2_abab Q.t2_abab Q.t2_aaaa),
    aug1 X.energy (ein5 L.dcfe L.ijba L.lkdc L.belk L.faij [] Q.g_abab_vvvv Q.l2_aaaa Q.l2_abab Q.t2_abab Q.t2_aaaa),
    aug1 X.energy (ein5 L.cdfe L.ijba L.lkcd L.belk L.faij [] Q.g_abab_vvvv Q.l2_aaaa Q.l2_abab Q.t2_abab Q.t2_aaaa),
    aug1 X.energy (ein5 L.dcef L.ijba L.kldc L.ebkl L.faij [] Q.g_aaaa_vvvv Q.l2_abab Q.l2_aaaa Q.t2_aaaa Q.t2_abab),
    aug1 X.energy (ein5 L.dcfe L.ijba L.kldc L.bekl L.faij [] Q.g_abab_vvvv Q.l2_abab Q.l2_abab Q.t2_abab Q.t2_abab),
    aug1 X.energy (ein5 L.cdfe L.ijba L.klcd L.bekl L.faij [] Q.g_abab_vvvv Q.l2_abab Q.l2_abab Q.t2_abab Q.t2_abab),
    aug1 X.energy (ein5 L.dcfe L.ijba L.lkdc L.belk L.faij [] Q.g_abab_vvvv Q.l2_abab Q.l2_abab Q.t2_abab Q.t2_abab),
    aug1 X.energy (ein5 L.cdfe L.ijba L.lkcd L.belk L.faij [] Q.g_abab_vvvv Q.l2_abab Q.l2_abab Q.t2_abab Q.t2_abab),
    aug1 X.energy (ein5 L.dcef L.ijab L.kldc L.ebkl L.afij [] Q.g_abab_vvvv Q.l2_abab Q.l2_abab Q.t2_abab Q.t2_abab),
    aug1 X.energy (ein5 L.cdef L.ijab L.klcd L.ebkl L.afij [] Q.g_abab_vvvv Q.l2_abab Q.l2_abab Q.t2_abab Q.t2_abab),
    aug1 X.energy (ein5 L.dcef L.ijab L.lkdc L.eblk L.afij [] Q.g_abab_vvvv Q.l2_abab Q.l2_abab Q.t2_abab Q.t2_abab),
    aug1 X.energy (ein5 L.cdef L.ijab L.lkcd L.eblk L.afij [] Q.g_abab_vvvv Q.l2_abab Q.l2_abab Q.t2_abab Q.t2_abab),
    aug1 X.energy (ein5 L.dcef L.ijab L.kldc L.ebkl L.afij [] Q.g_bbbb_vvvv Q.l2_abab Q.l2_bbbb Q.t2_bbbb Q.t2_abab),
    aug1 X.energy (ein5 L.dcef L.jiba L.kldc L.ebkl L.faji [] Q.g_aaaa_vvvv Q.l2_abab Q.l2_aaaa Q.t2_aaaa Q.t2_abab),
    aug1 X.energy (ein5 L.dcfe L.jiba L.kldc L.bekl L.faji [] Q.g_abab_vvvv Q.l2_abab Q.l2_abab Q.t2_abab Q.t2_abab),
    aug1 X.energy (ein5 L.cdfe L.jiba L.klcd L.bekl L.faji [] Q.g_abab_vvvv Q.l2_abab Q.l2_abab Q.t2_abab Q.t2_abab),
    aug1 X.energy (ein5 L.dcfe L.jiba L.lkdc L.belk L.faji [] Q.g_abab_vvvv Q.l2_abab Q.l2_abab Q.t2_abab Q.t2_abab),
    aug1 X.energy (ein5 L.cdfe L.jiba L.lkcd L.belk L.faji [] Q.g_abab_vvvv Q.l2_abab Q.l2_abab Q.t2_abab Q.t2_abab),
    aug1 X.energy (ein5 L.dcef L.jiab L.kldc L.ebkl L.afji [] Q.g_abab_vvvv Q.l2_abab Q.l2_abab Q.t2_abab Q.t2_abab),
    aug1 X.energy (ein5 L.cdef L.jiab L.klcd L.ebkl L.afji [] Q.g_abab_vvvv Q.l2_abab Q.l2_abab Q.t2_abab Q.t2_abab),
    aug1 X.energy (ein5 L.dcef L.jiab L.lkdc L.eblk L.afji [] Q.g_abab_vvvv Q.l2_abab Q.l2_abab Q.t2_abab Q.t2_abab),
    aug1 X.energy (ein5 L.cdef L.jiab L.lkcd L.eblk L.afji [] Q.g_abab_vvvv Q.l2_abab Q.l2_abab Q.t2_abab Q.t2_abab),
    aug1 X.energy (ein5 L.dcef L.jiab L.kldc L.ebkl L.afji [] Q.g_bbbb_vvvv Q.l2_abab Q.l2_bbbb Q.t2_bbbb Q.t2_abab),
    aug1 X.energy (ein5 L.dcef L.ijba L.kldc L.ebkl L.faij [] Q.g_abab_vvvv Q.l2_bbbb Q.l2_abab Q.t2_abab Q.t2_bbbb),
    aug1 X.energy (ein5 L.cdef L.ijba L.klcd L.ebkl L.faij [] Q.g_abab_vvvv Q.l2_bbbb Q.l2_abab Q.t2_abab Q.t2_bbbb),
    aug1 X.energy (ein5 L.dcef L.ijba L.lkdc L.eblk L.faij [] Q.g_abab_vvvv Q.l2_bbbb Q.l2_abab Q.t2_abab Q.t2_bbbb),
    aug1 X.energy (ein5 L.cdef L.ijba L.lkcd L.eblk L.faij [] Q.g_abab_vvvv Q.l2_bbbb Q.l2_abab Q.t2_abab Q.t2_bbbb),
    aug1 X.energy (ein5 L.dcef L.ijba L.kldc L.ebkl L.faij [] Q.g_bbbb_vvvv Q.l2_bbbb Q.l2_bbbb Q.t2_bbbb Q.t2_bbbb),
    aug1 X.energy (ein5 L.dcef L.ijba L.kldc L.ebjl L.faik [] Q.g_aaaa_vvvv Q.l2_aaaa Q.l2_aaaa Q.t2_aaaa Q.t2_aaaa),
    aug1 X.energy (ein5 L.dcfe L.ijba L.kldc L.bejl L.faik [] Q.g_abab_vvvv Q.l2_aaaa Q.l2_abab Q.t2_abab Q.t2_aaaa),
    aug1 X.energy (ein5 L.cdfe L.ijba L.klcd L.bejl L.faik [] Q.g_abab_vvvv Q.l2_aaaa Q.l2_abab Q.t2_abab Q.t2_aaaa),
    aug1 X.energy (ein5 L.dcef L.ijba L.lkdc L.ebjl L.afik [] Q.g_abab_vvvv Q.l2_aaaa Q.l2_abab Q.t2_aaaa Q.t2_abab),
    aug1 X.energy (ein5 L.cdef L.ijba L.lkcd L.ebjl L.afik [] Q.g_abab_vvvv Q.l2_aaaa Q.l2_abab Q.t2_aaaa Q.t2_abab),
    aug1 X.energy (ein5 L.dcef L.ijba L.kldc L.bejl L.afik [] Q.g_bbbb_vvvv Q.l2_aaaa Q.l2_bbbb Q.t2_abab Q.t2_abab),
    aug1 X.energy (ein5 L.dcfe L.ijba L.lkdc L.belj L.faik [] Q.g_abab_vvvv Q.l2_abab Q.l2_abab Q.t2_abab Q.t2_abab),
    aug1 X.energy (ein5 L.cdfe L.ijba L.lkcd L.belj L.faik [] Q.g_abab_vvvv Q.l2_abab Q.l2_abab Q.t2_abab Q.t2_abab),
    aug1 X.energy (ein5 L.dcef L.ijab L.kldc L.eblj L.faik [] Q.g_aaaa_vvvv Q.l2_abab Q.l2_aaaa Q.t2_abab Q.t2_aaaa),
    aug1 X.energy (ein5 L.dcfe L.ijab L.kldc L.ebjl L.faik [] Q.g_abab_vvvv Q.l2_abab Q.l2_abab Q.t2_bbbb Q.t2_aaaa),
    aug1 X.energy (ein5 L.cdfe L.ijab L.klcd L.ebjl L.faik [] Q.g_abab_vvvv Q.l2_abab Q.l2_abab Q.t2_bbbb Q.t2_aaaa),
    aug1 X.energy (ein5 L.dcef L.ijab L.lkdc L.eblj L.afik [] Q.g_abab_vvvv Q.l2_abab Q.l2_abab Q.t2_abab Q.t2_abab),
    aug1 X.energy (ein5 L.cdef L.ijab L.lkcd L.eblj L.afik [] Q.g_abab_vvvv Q.l2_abab Q.l2_abab Q.t2_abab Q.t2_abab),
    aug1 X.energy (ein5 L.dcef L.ijab L.kldc L.ebjl L.afik [] Q.g_bbbb_vvvv Q.l2_abab Q.l2_bbbb Q.t2_bbbb Q.t2_abab),
    aug1 X.energy (ein5 L.dcef L.jiba L.kldc L.ebjl L.faki [] Q.g_aaaa_vvvv Q.l2_abab Q.l2_aaaa Q.t2_aaaa Q.t2_abab),
    aug1 X.energy (ein5 L.dcfe L.jiba L.kldc L.bejl L.faki [] Q.g_abab_vvvv Q.l2_abab Q.l2_abab Q.t2_abab Q.t2_abab),
    aug1 X.energy (ein5 L.cdfe L.jiba L.klcd L.bejl L.faki [] Q.g_abab_vvvv Q.l2_abab Q.l2_abab Q.t2_abab Q.t2_abab),
    aug1 X.energy (ein5 L.dcef L.jiba L.lkdc L.ebjl L.faik [] Q.g_abab_vvvv Q.l2_abab Q.l2_abab Q.t2_aaaa Q.t2_bbbb),
    aug1 X.energy (ein5 L.cdef L.jiba L.lkcd L.ebjl L.faik [] Q.g_abab_vvvv Q.l2_abab Q.l2_abab Q.t2_aaaa Q.t2_bbbb),
    aug1 X.energy (ein5 L.dcef L.jiba L.kldc L.bejl L.faik [] Q.g_bbbb_vvvv Q.l2_abab Q.l2_bbbb Q.t2_abab Q.t2_bbbb),
    aug1 X.energy (ein5 L.dcef L.jiab L.kldc L.ebjl L.afki [] Q.g_abab_vvvv Q.l2_abab Q.l2_abab Q.t2_abab Q.t2_abab),
    aug1 X.energy (ein5 L.cdef L.jiab L.klcd L.ebjl L.afki [] Q.g_abab_vvvv Q.l2_abab Q.l2_abab Q.t2_abab Q.t2_abab),
    aug1 X.energy (ein5 L.dcef L.ijba L.kldc L.eblj L.faki [] Q.g_aaaa_vvvv Q.l2_bbbb Q.l2_aaaa Q.t2_abab Q.t2_abab),
    aug1 X.energy (ein5 L.dcfe L.ijba L.kldc L.ebjl L.faki [] Q.g_abab_vvvv Q.l2_bbbb Q.l2_abab Q.t2_bbbb Q.t2_abab),
    aug1 X.energy (ein5 L.cdfe L.ijba L.klcd L.ebjl L.faki [] Q.g_abab_vvvv Q.l2_bbbb Q.l2_abab Q.t2_bbbb Q.t2_abab),
    aug1 X.energy (ein5 L.dcef L.ijba L.lkdc L.eblj L.faik [] Q.g_abab_vvvv Q.l2_bbbb Q.l2_abab Q.t2_abab Q.t2_bbbb),
    aug1 X.energy (ein5 L.cdef L.ijba L.lkcd L.eblj L.faik [] Q.g_abab_vvvv Q.l2_bbbb Q.l2_abab Q.t2_abab Q.t2_bbbb),
    aug1 X.energy (ein5 L.dcef L.ijba L.kldc L.ebjl L.faik [] Q.g_bbbb_vvvv Q.l2_bbbb Q.l2_bbbb Q.t2_bbbb Q.t2_bbbb),
    aug1 X.energy (ein5 L.dbef L.ijba L.kldc L.eckl L.faij [] Q.g_aaaa_vvvv Q.l2_aaaa Q.l2_aaaa Q.t2_aaaa Q.t2_aaaa),
    aug1 X.energy (ein5 L.dbef L.ijba L.kldc L.eckl L.faij [] Q.g_aaaa_vvvv Q.l2_aaaa Q.l2_abab Q.t2_abab Q.t2_aaaa),
    aug1 X.energy (ein5 L.bdfe L.ijba L.klcd L.cekl L.faij [] Q.g_abab_vvvv Q.l2_aaaa Q.l2_abab Q.t2_abab Q.t2_aaaa),
    aug1 X.energy (ein5 L.dbef L.ijba L.lkdc L.eclk L.faij [] Q.g_aaaa_vvvv Q.l2_aaaa Q.l2_abab Q.t2_abab Q.t2_aaaa),
    aug1 X.energy (ein5 L.bdfe L.ijba L.lkcd L.celk L.faij [] Q.g_abab_vvvv Q.l2_aaaa Q.l2_abab Q.t2_abab Q.t2_aaaa),
    aug1 X.energy (ein5 L.bdfe L.ijba L.kldc L.eckl L.faij [] Q.g_abab_vvvv Q.l2_aaaa Q.l2_bbbb Q.t2_bbbb Q.t2_aaaa),
    aug1 X.energy (ein5 L.dbef L.ijba L.kldc L.eckl L.faij [] Q.g_aaaa_vvvv Q.l2_abab Q.l2_aaaa Q.t2_aaaa Q.t2_abab),
    aug1 X.energy (ein5 L.dbef L.ijba L.kldc L.eckl L.faij [] Q.g_aaaa_vvvv Q.l2_abab Q.l2_abab Q.t2_abab Q.t2_abab),
    aug1 X.energy (ein5 L.bdfe L.ijba L.klcd L.cekl L.faij [] Q.g_abab_vvvv Q.l2_abab Q.l2_abab Q.t2_abab Q.t2_abab),
    aug1 X.energy (ein5 L.dbef L.ijba L.lkdc L.eclk L.faij [] Q.g_aaaa_vvvv Q.l2_abab Q.l2_abab Q.t2_abab Q.t2_abab),
    aug1 X.energy (ein5 L.bdfe L.ijba L.lkcd L.celk L.faij [] Q.g_abab_vvvv Q.l2_abab Q.l2_abab Q.t2_abab Q.t2_abab),
    aug1 X.energy (ein5 L.bdfe L.ijba L.kldc L.eckl L.faij [] Q.g_abab_vvvv Q.l2_abab Q.l2_bbbb Q.t2_bbbb Q.t2_abab),
    aug1 X.energy (ein5 L.dbef L.ijab L.kldc L.eckl L.afij [] Q.g_abab_vvvv Q.l2_abab Q.l2_aaaa Q.t2_aaaa Q.t2_abab),
    aug1 X.energy (ein5 L.dbef L.ijab L.kldc L.eckl L.afij [] Q.g_abab_vvvv Q.l2_abab Q.l2_abab Q.t2_abab Q.t2_abab),
    aug1 X.energy (ein5 L.dbef L.ijab L.klcd L.cekl L.afij [] Q.g_bbbb_vvvv Q.l2_abab Q.l2_abab Q.t2_abab Q.t2_abab),
    aug1 X.energy (ein5 L.dbef L.ijab L.lkdc L.eclk L.afij [] Q.g_abab_vvvv Q.l2_abab Q.l2_abab Q.t2_abab Q.t2_abab),
    aug1 X.energy (ein5 L.dbef L.ijab L.lkcd L.celk L.afij [] Q.g_bbbb_vvvv Q.l2_abab Q.l2_abab Q.t2_abab Q.t2_abab),
    aug1 X.energy (ein5 L.dbef L.ijab L.kldc L.eckl L.afij [] Q.g_bbbb_vvvv Q.l2_abab Q.l2_bbbb Q.t2_bbbb Q.t2_abab),
    aug1 X.energy (ein5 L.dbef L.jiba L.kldc L.eckl L.faji [] Q.g_aaaa_vvvv Q.l2_abab Q.l2_aaaa Q.t2_aaaa Q.t2_abab),
    aug1 X.energy (ein5 L.dbef L.jiba L.kldc L.eckl L.faji [] Q.g_aaaa_vvvv Q.l2_abab Q.l2_abab Q.t2_abab Q.t2_abab),
    aug1 X.energy (ein5 L.bdfe L.jiba L.klcd L.cekl L.faji [] Q.g_abab_vvvv Q.l2_abab Q.l2_abab Q.t2_abab Q.t2_abab),
    aug1 X.energy (ein5 L.dbef L.jiba L.lkdc L.eclk L.faji [] Q.g_aaaa_vvvv Q.l2_abab Q.l2_abab Q.t2_abab Q.t2_abab),
    aug1 X.energy (ein5 L.bdfe L.jiba L.lkcd L.celk L.faji [] Q.g_abab_vvvv Q.l2_abab Q.l2_abab Q.t2_abab Q.t2_abab),
    aug1 X.energy (ein5 L.bdfe L.jiba L.kldc L.eckl L.faji [] Q.g_abab_vvvv Q.l2_abab Q.l2_bbbb Q.t2_bbbb Q.t2_abab),
    aug1 X.energy (ein5 L.dbef L.jiab L.kldc L.eckl L.afji [] Q.g_abab_vvvv Q.l2_abab Q.l2_aaaa Q.t2_aaaa Q.t2_abab),
    aug1 X.energy (ein5 L.dbef L.jiab L.kldc L.eckl L.afji [] Q.g_abab_vvvv Q.l2_abab Q.l2_abab Q.t2_abab Q.t2_abab),
    aug1 X.energy (ein5 L.dbef L.jiab L.klcd L.cekl L.afji [] Q.g_bbbb_vvvv Q.l2_abab Q.l2_abab Q.t2_abab Q.t2_abab),
    aug1 X.energy (ein5 L.dbef L.jiab L.lkdc L.eclk L.afji [] Q.g_abab_vvvv Q.l2_abab Q.l2_abab Q.t2_abab Q.t2_abab),
    aug1 X.energy (ein5 L.dbef L.jiab L.lkcd L.celk L.afji [] Q.g_bbbb_vvvv Q.l2_abab Q.l2_abab Q.t2_abab Q.t2_abab),
    aug1 X.energy (ein5 L.dbef L.jiab L.kldc L.eckl L.afji [] Q.g_bbbb_vvvv Q.l2_abab Q.l2_bbbb Q.t2_bbbb Q.t2_abab),
    aug1 X.energy (ein5 L.dbef L.ijba L.kldc L.eckl L.faij [] Q.g_abab_vvvv Q.l2_bbbb Q.l2_aaaa Q.t2_aaaa Q.t2_bbbb),
    aug1 X.energy (ein5 L.dbef L.ijba L.kldc L.eckl L.faij [] Q.g_abab_vvvv Q.l2_bbbb Q.l2_abab Q.t2_abab Q.t2_bbbb),
    aug1 X.energy (ein5 L.dbef L.ijba L.klcd L.cekl L.faij [] Q.g_bbbb_vvvv Q.l2_bbbb Q.l2_abab Q.t2_abab Q.t2_bbbb),
    aug1 X.energy (ein5 L.dbef L.ijba L.lkdc L.eclk L.faij [] Q.g_abab_vvvv Q.l2_bbbb Q.l2_abab Q.t2_abab Q.t2_bbbb),
    aug1 X.energy (ein5 L.dbef L.ijba L.lkcd L.celk L.faij [] Q.g_bbbb_vvvv Q.l2_bbbb Q.l2_abab Q.t2_abab Q.t2_bbbb),
    aug1 X.energy (ein5 L.dbef L.ijba L.kldc L.eckl L.faij [] Q.g_bbbb_vvvv Q.l2_bbbb Q.l2_bbbb Q.t2_bbbb Q.t2_bbbb),
    aug1 X.energy (ein5 L.dbef L.ijba L.kldc L.ecjl L.faik [] Q.g_aaaa_vvvv Q.l2_aaaa Q.l2_aaaa Q.t2_aaaa Q.t2_aaaa),
    aug1 X.energy (ein5 L.dbef L.ijba L.kldc L.ecjl L.faik [] Q.g_aaaa_vvvv Q.l2_aaaa Q.l2_abab Q.t2_abab Q.t2_aaaa),
    aug1 X.energy (ein5 L.bdfe L.ijba L.klcd L.cejl L.faik [] Q.g_abab_vvvv Q.l2_aaaa Q.l2_abab Q.t2_abab Q.t2_aaaa),
    aug1 X.energy (ein5 L.bdef L.ijba L.lkcd L.ecjl L.afik [] Q.g_abab_vvvv Q.l2_aaaa Q.l2_abab Q.t2_aaaa Q.t2_abab),
    aug1 X.energy (ein5 L.bdef L.ijba L.kldc L.ecjl L.afik [] Q.g_abab_vvvv Q.l2_aaaa Q.l2_bbbb Q.t2_abab Q.t2_abab),
    aug1 X.energy (ein5 L.dbef L.ijba L.lkdc L.eclj L.faik [] Q.g_aaaa_vvvv Q.l2_abab Q.l2_abab Q.t2_abab Q.t2_abab),
    aug1 X.energy (ein5 L.bdfe L.ijba L.lkcd L.celj L.faik [] Q.g_abab_vvvv Q.l2_abab Q.l2_abab Q.t2_abab Q.t2_abab),
    aug1 X.energy (ein5 L.bdfe L.ijba L.kldc L.ecjl L.faik [] Q.g_abab_vvvv Q.l2_abab Q.l2_bbbb Q.t2_bbbb Q.t2_abab),
    aug1 X.energy (ein5 L.dbfe L.ijab L.kldc L.celj L.faik [] Q.g_abab_vvvv Q.l2_abab Q.l2_aaaa Q.t2_abab Q.t2_aaaa),
    aug1 X.energy (ein5 L.dbfe L.ijab L.kldc L.ecjl L.faik [] Q.g_abab_vvvv Q.l2_abab Q.l2_abab Q.t2_bbbb Q.t2_aaaa),
    aug1 X.energy (ein5 L.dbef L.ijab L.lkdc L.eclj L.afik [] Q.g_abab_vvvv Q.l2_abab Q.l2_abab Q.t2_abab Q.t2_abab),
    aug1 X.energy (ein5 L.dbef L.ijab L.lkcd L.celj L.afik [] Q.g_bbbb_vvvv Q.l2_abab Q.l2_abab Q.t2_abab Q.t2_abab),
    aug1 X.energy (ein5 L.dbef L.ijab L.kldc L.ecjl L.afik [] Q.g_bbbb_vvvv Q.l2_abab Q.l2_bbbb Q.t2_bbbb Q.t2_abab),
    aug1 X.energy (ein5 L.dbef L.jiba L.kldc L.ecjl L.faki [] Q.g_aaaa_vvvv Q.l2_abab Q.l2_aaaa Q.t2_aaaa Q.t2_abab),
    aug1 X.energy (ein5 L.dbef L.jiba L.kldc L.ecjl L.faki [] Q.g_aaaa_vvvv Q.l2_abab Q.l2_abab Q.t2_abab Q.t2_abab),
    aug1 X.energy (ein5 L.bdfe L.jiba L.klcd L.cejl L.faki [] Q.g_abab_vvvv Q.l2_abab Q.l2_abab Q.t2_abab Q.t2_abab),
    aug1 X.energy (ein5 L.bdef L.jiba L.lkcd L.ecjl L.faik [] Q.g_abab_vvvv Q.l2_abab Q.l2_abab Q.t2_aaaa Q.t2_bbbb),
    aug1 X.energy (ein5 L.bdef L.jiba L.kldc L.ecjl L.faik [] Q.g_abab_vvvv Q.l2_abab Q.l2_bbbb Q.t2_abab Q.t2_bbbb),
    aug1 X.energy (ein5 L.dbef L.jiab L.kldc L.ecjl L.afki [] Q.g_abab_vvvv Q.l2_abab Q.l2_aaaa Q.t2_aaaa Q.t2_abab),
    aug1 X.energy (ein5 L.dbef L.jiab L.kldc L.ecjl L.afki [] Q.g_abab_vvvv Q.l2_abab Q.l2_abab Q.t2_abab Q.t2_abab),
    aug1 X.energy (ein5 L.dbef L.jiab L.klcd L.cejl L.afki [] Q.g_bbbb_vvvv Q.l2_abab Q.l2_abab Q.t2_abab Q.t2_abab),
    aug1 X.energy (ein5 L.dbfe L.ijba L.kldc L.celj L.faki [] Q.g_abab_vvvv Q.l2_bbbb Q.l2_aaaa Q.t2_abab Q.t2_abab),
    aug1 X.energy (ein5 L.dbfe L.ijba L.kldc L.ecjl L.faki [] Q.g_abab_vvvv Q.l2_bbbb Q.l2_abab Q.t2_bbbb Q.t2_abab),
    aug1 X.energy (ein5 L.dbef L.ijba L.lkdc L.eclj L.faik [] Q.g_abab_vvvv Q.l2_bbbb Q.l2_abab Q.t2_abab Q.t2_bbbb),
    aug1 X.energy (ein5 L.dbef L.ijba L.lkcd L.celj L.faik [] Q.g_bbbb_vvvv Q.l2_bbbb Q.l2_abab Q.t2_abab Q.t2_bbbb),
    aug1 X.energy (ein5 L.dbef L.ijba L.kldc L.ecjl L.faik [] Q.g_bbbb_vvvv Q.l2_bbbb Q.l2_bbbb Q.t2_bbbb Q.t2_bbbb),
    aug1 X.energy (ein5 L.dbef L.ijba L.kldc L.ecij L.fakl [] Q.g_aaaa_vvvv Q.l2_aaaa Q.l2_aaaa Q.t2_aaaa Q.t2_aaaa),
    aug1 X.energy (ein5 L.bdef L.ijba L.klcd L.ecij L.afkl [] Q.g_abab_vvvv Q.l2_aaaa Q.l2_abab Q.t2_aaaa Q.t2_abab),
    aug1 X.energy (ein5 L.bdef L.ijba L.lkcd L.ecij L.aflk [] Q.g_abab_vvvv Q.l2_aaaa Q.l2_abab Q.t2_aaaa Q.t2_abab),
    aug1 X.energy (ein5 L.dbef L.ijba L.kldc L.ecij L.fakl [] Q.g_aaaa_vvvv Q.l2_abab Q.l2_abab Q.t2_abab Q.t2_abab),
    aug1 X.energy (ein5 L.bdfe L.ijba L.klcd L.ceij L.fakl [] Q.g_abab_vvvv Q.l2_abab Q.l2_abab Q.t2_abab Q.t2_abab),
    aug1 X.energy (ein5 L.dbef L.ijba L.lkdc L.ecij L.falk [] Q.g_aaaa_vvvv Q.l2_abab Q.l2_abab Q.t2_abab Q.t2_abab),
    aug1 X.energy (ein5 L.bdfe L.ijba L.lkcd L.ceij L.falk [] Q.g_abab_vvvv Q.l2_abab Q.l2_abab Q.t2_abab Q.t2_abab),
    aug1 X.energy (ein5 L.bdef L.ijba L.kldc L.ecij L.fakl [] Q.g_abab_vvvv Q.l2_abab Q.l2_bbbb Q.t2_abab Q.t2_bbbb),
    aug1 X.energy (ein5 L.dbfe L.ijab L.kldc L.ceij L.fakl [] Q.g_abab_vvvv Q.l2_abab Q.l2_aaaa Q.t2_abab Q.t2_aaaa),
    aug1 X.energy (ein5 L.dbef L.ijab L.kldc L.ecij L.afkl [] Q.g_abab_vvvv Q.l2_abab Q.l2_abab Q.t2_abab Q.t2_abab),
    aug1 X.energy (ein5 L.dbef L.ijab L.klcd L.ceij L.afkl [] Q.g_bbbb_vvvv Q.l2_abab Q.l2_abab Q.t2_abab Q.t2_abab),
    aug1 X.energy (ein5 L.dbef L.ijab L.lkdc L.ecij L.aflk [] Q.g_abab_vvvv Q.l2_abab Q.l2_abab Q.t2_abab Q.t2_abab),
    aug1 X.energy (ein5 L.dbef L.ijab L.lkcd L.ceij L.aflk [] Q.g_bbbb_vvvv Q.l2_abab Q.l2_abab Q.t2_abab Q.t2_abab),
    aug1 X.energy (ein5 L.dbef L.jiba L.kldc L.ecji L.fakl [] Q.g_aaaa_vvvv Q.l2_abab Q.l2_abab Q.t2_abab Q.t2_abab),
    aug1 X.energy (ein5 L.bdfe L.jiba L.klcd L.ceji L.fakl [] Q.g_abab_vvvv Q.l2_abab Q.l2_abab Q.t2_abab Q.t2_abab),
    aug1 X.energy (ein5 L.dbef L.jiba L.lkdc L.ecji L.falk [] Q.g_aaaa_vvvv Q.l2_abab Q.l2_abab Q.t2_abab Q.t2_abab),
    aug1 X.energy (ein5 L.bdfe L.jiba L.lkcd L.ceji L.falk [] Q.g_abab_vvvv Q.l2_abab Q.l2_abab Q.t2_abab Q.t2_abab),
    aug1 X.energy (ein5 L.bdef L.jiba L.kldc L.ecji L.fakl [] Q.g_abab_vvvv Q.l2_abab Q.l2_bbbb Q.t2_abab Q.t2_bbbb),
    aug1 X.energy (ein5 L.dbfe L.jiab L.kldc L.ceji L.fakl [] Q.g_abab_vvvv Q.l2_abab Q.l2_aaaa Q.t2_abab Q.t2_aaaa),
    aug1 X.energy (ein5 L.dbef L.jiab L.kldc L.ecji L.afkl [] Q.g_abab_vvvv Q.l2_abab Q.l2_abab Q.t2_abab Q.t2_abab),
    aug1 X.energy (ein5 L.dbef L.jiab L.klcd L.ceji L.afkl [] Q.g_bbbb_vvvv Q.l2_abab Q.l2_abab Q.t2_abab Q.t2_abab),
    aug1 X.energy (ein5 L.dbef L.jiab L.lkdc L.ecji L.aflk [] Q.g_abab_vvvv Q.l2_abab Q.l2_abab Q.t2_abab Q.t2_abab),
    aug1 X.energy (ein5 L.dbef L.jiab L.lkcd L.ceji L.aflk [] Q.g_bbbb_vvvv Q.l2_abab Q.l2_abab Q.t2_abab Q.t2_abab),
    aug1 X.energy (ein5 L.dbfe L.ijba L.kldc L.ecij L.fakl [] Q.g_abab_vvvv Q.l2_bbbb Q.l2_abab Q.t2_bbbb Q.t2_abab),
    aug1 X.energy (ein5 L.dbfe L.ijba L.lkdc L.ecij L.falk [] Q.g_abab_vvvv Q.l2_bbbb Q.l2_abab Q.t2_bbbb Q.t2_abab),
    aug1 X.energy (ein5 L.dbef L.ijba L.kldc L.ecij L.fakl [] Q.g_bbbb_vvvv Q.l2_bbbb Q.l2_bbbb Q.t2_bbbb Q.t2_bbbb),
    aug1 X.energy (ein5 L.daef L.ijba L.kldc L.ebjl L.fcik [] Q.g_aaaa_vvvv Q.l2_aaaa Q.l2_aaaa Q.t2_aaaa Q.t2_aaaa),
    aug1 X.energy (ein5 L.adfe L.ijba L.klcd L.bejl L.fcik [] Q.g_abab_vvvv Q.l2_aaaa Q.l2_abab Q.t2_abab Q.t2_aaaa),
    aug1 X.energy (ein5 L.daef L.ijba L.lkdc L.ebjl L.fcik [] Q.g_aaaa_vvvv Q.l2_aaaa Q.l2_abab Q.t2_aaaa Q.t2_abab),
    aug1 X.energy (ein5 L.adef L.ijba L.lkcd L.ebjl L.cfik [] Q.g_abab_vvvv Q.l2_aaaa Q.l2_abab Q.t2_aaaa Q.t2_abab),
    aug1 X.energy (ein5 L.adfe L.ijba L.kldc L.bejl L.fcik [] Q.g_abab_vvvv Q.l2_aaaa Q.l2_bbbb Q.t2_abab Q.t2_abab),
    aug1 X.energy (ein5 L.dafe L.ijba L.kldc L.belj L.fcik [] Q.g_abab_vvvv Q.l2_abab Q.l2_aaaa Q.t2_abab Q.t2_aaaa),
    aug1 X.energy (ein5 L.dafe L.ijba L.lkdc L.belj L.fcik [] Q.g_abab_vvvv Q.l2_abab Q.l2_abab Q.t2_abab Q.t2_abab),
    aug1 X.energy (ein5 L.daef L.ijba L.lkcd L.belj L.cfik [] Q.g_bbbb_vvvv Q.l2_abab Q.l2_abab Q.t2_abab Q.t2_abab),
    aug1 X.energy (ein5 L.daef L.ijab L.kldc L.eblj L.fcik [] Q.g_aaaa_vvvv Q.l2_abab Q.l2_aaaa Q.t2_abab Q.t2_aaaa),
    aug1 X.energy (ein5 L.adfe L.ijab L.klcd L.ebjl L.fcik [] Q.g_abab_vvvv Q.l2_abab Q.l2_abab Q.t2_bbbb Q.t2_aaaa),
    aug1 X.energy (ein5 L.daef L.ijab L.lkdc L.eblj L.fcik [] Q.g_aaaa_vvvv Q.l2_abab Q.l2_abab Q.t2_abab Q.t2_abab),
    aug1 X.energy (ein5 L.adef L.ijab L.lkcd L.eblj L.cfik [] Q.g_abab_vvvv Q.l2_abab Q.l2_abab Q.t2_abab Q.t2_abab),
    aug1 X.energy (ein5 L.adfe L.ijab L.kldc L.ebjl L.fcik [] Q.g_abab_vvvv Q.l2_abab Q.l2_bbbb Q.t2_bbbb Q.t2_abab),
    aug1 X.energy (ein5 L.daef L.jiba L.kldc L.ebjl L.cfki [] Q.g_abab_vvvv Q.l2_abab Q.l2_aaaa Q.t2_aaaa Q.t2_abab),
    aug1 X.energy (ein5 L.dafe L.jiba L.kldc L.bejl L.fcki [] Q.g_abab_vvvv Q.l2_abab Q.l2_abab Q.t2_abab Q.t2_abab),
    aug1 X.energy (ein5 L.daef L.jiba L.klcd L.bejl L.cfki [] Q.g_bbbb_vvvv Q.l2_abab Q.l2_abab Q.t2_abab Q.t2_abab),
    aug1 X.energy (ein5 L.daef L.jiba L.lkdc L.ebjl L.fcik [] Q.g_abab_vvvv Q.l2_abab Q.l2_abab Q.t2_aaaa Q.t2_bbbb),
    aug1 X.energy (ein5 L.daef L.jiba L.kldc L.bejl L.fcik [] Q.g_bbbb_vvvv Q.l2_abab Q.l2_bbbb Q.t2_abab Q.t2_bbbb),
    aug1 X.energy (ein5 L.daef L.jiab L.kldc L.ebjl L.fcki [] Q.g_aaaa_vvvv Q.l2_abab Q.l2_abab Q.t2_abab Q.t2_abab),
    aug1 X.energy (ein5 L.adef L.jiab L.klcd L.ebjl L.cfki [] Q.g_abab_vvvv Q.l2_abab Q.l2_abab Q.t2_abab Q.t2_abab),
    aug1 X.energy (ein5 L.adef L.jiab L.kldc L.ebjl L.fcik [] Q.g_abab_vvvv Q.l2_abab Q.l2_bbbb Q.t2_abab Q.t2_bbbb),
    aug1 X.energy (ein5 L.daef L.ijba L.kldc L.eblj L.cfki [] Q.g_abab_vvvv Q.l2_bbbb Q.l2_aaaa Q.t2_abab Q.t2_abab),
    aug1 X.energy (ein5 L.dafe L.ijba L.kldc L.ebjl L.fcki [] Q.g_abab_vvvv Q.l2_bbbb Q.l2_abab Q.t2_bbbb Q.t2_abab),
    aug1 X.energy (ein5 L.daef L.ijba L.klcd L.ebjl L.cfki [] Q.g_bbbb_vvvv Q.l2_bbbb Q.l2_abab Q.t2_bbbb Q.t2_abab),
    aug1 X.energy (ein5 L.daef L.ijba L.lkdc L.eblj L.fcik [] Q.g_abab_vvvv Q.l2_bbbb Q.l2_abab Q.t2_abab Q.t2_bbbb),
    aug1 X.energy (ein5 L.daef L.ijba L.kldc L.ebjl L.fcik [] Q.g_bbbb_vvvv Q.l2_bbbb Q.l2_bbbb Q.t2_bbbb Q.t2_bbbb),
    aug1 X.energy (ein5 L.baef L.ijba L.kldc L.edkl L.fcij [] Q.g_aaaa_vvvv Q.l2_aaaa Q.l2_aaaa Q.t2_aaaa Q.t2_aaaa),
    aug1 X.energy (ein5 L.baef L.ijba L.klcd L.edkl L.fcij [] Q.g_aaaa_vvvv Q.l2_aaaa Q.l2_abab Q.t2_abab Q.t2_aaaa),
    aug1 X.energy (ein5 L.baef L.ijba L.lkcd L.edlk L.fcij [] Q.g_aaaa_vvvv Q.l2_aaaa Q.l2_abab Q.t2_abab Q.t2_aaaa),
    aug1 X.energy (ein5 L.baef L.ijba L.kldc L.edkl L.cfij [] Q.g_abab_vvvv Q.l2_abab Q.l2_aaaa Q.t2_aaaa Q.t2_abab),
    aug1 X.energy (ein5 L.bafe L.ijba L.kldc L.dekl L.fcij [] Q.g_abab_vvvv Q.l2_abab Q.l2_abab Q.t2_abab Q.t2_abab),
    aug1 X.energy (ein5 L.baef L.ijba L.klcd L.edkl L.cfij [] Q.g_abab_vvvv Q.l2_abab Q.l2_abab Q.t2_abab Q.t2_abab),
    aug1 X.energy (ein5 L.bafe L.ijba L.lkdc L.delk L.fcij [] Q.g_abab_vvvv Q.l2_abab Q.l2_abab Q.t2_abab Q.t2_abab),
    aug1 X.energy (ein5 L.baef L.ijba L.lkcd L.edlk L.cfij [] Q.g_abab_vvvv Q.l2_abab Q.l2_abab Q.t2_abab Q.t2_abab),
    aug1 X.energy (ein5 L.bafe L.ijba L.kldc L.edkl L.fcij [] Q.g_abab_vvvv Q.l2_abab Q.l2_bbbb Q.t2_bbbb Q.t2_abab),
    aug1 X.energy (ein5 L.abef L.ijab L.kldc L.edkl L.cfij [] Q.g_abab_vvvv Q.l2_abab Q.l2_aaaa Q.t2_aaaa Q.t2_abab),
    aug1 X.energy (ein5 L.abfe L.ijab L.kldc L.dekl L.fcij [] Q.g_abab_vvvv Q.l2_abab Q.l2_abab Q.t2_abab Q.t2_abab),
    aug1 X.energy (ein5 L.abef L.ijab L.klcd L.edkl L.cfij [] Q.g_abab_vvvv Q.l2_abab Q.l2_abab Q.t2_abab Q.t2_abab),
    aug1 X.energy (ein5 L.abfe L.ijab L.lkdc L.delk L.fcij [] Q.g_abab_vvvv Q.l2_abab Q.l2_abab Q.t2_abab Q.t2_abab),
    aug1 X.energy (ein5 L.abef L.ijab L.lkcd L.edlk L.cfij [] Q.g_abab_vvvv Q.l2_abab Q.l2_abab Q.t2_abab Q.t2_abab),
    aug1 X.energy (ein5 L.abfe L.ijab L.kldc L.edkl L.fcij [] Q.g_abab_vvvv Q.l2_abab Q.l2_bbbb Q.t2_bbbb Q.t2_abab),
    aug1 X.energy (ein5 L.baef L.jiba L.kldc L.edkl L.cfji [] Q.g_abab_vvvv Q.l2_abab Q.l2_aaaa Q.t2_aaaa Q.t2_abab),
    aug1 X.energy (ein5 L.bafe L.jiba L.kldc L.dekl L.fcji [] Q.g_abab_vvvv Q.l2_abab Q.l2_abab Q.t2_abab Q.t2_abab),
    aug1 X.energy (ein5 L.baef L.jiba L.klcd L.edkl L.cfji [] Q.g_abab_vvvv Q.l2_abab Q.l2_abab Q.t2_abab Q.t2_abab),
    aug1 X.energy (ein5 L.bafe L.jiba L.lkdc L.delk L.fcji [] Q.g_abab_vvvv Q.l2_abab Q.l2_abab Q.t2_abab Q.t2_abab),
    aug1 X.energy (ein5 L.baef L.jiba L.lkcd L.edlk L.cfji [] Q.g_abab_vvvv Q.l2_abab Q.l2_abab Q.t2_abab Q.t2_abab),
    aug1 X.energy (ein5 L.bafe L.jiba L.kldc L.edkl L.fcji [] Q.g_abab_vvvv Q.l2_abab Q.l2_bbbb Q.t2_bbbb Q.t2_abab),
    aug1 X.energy (ein5 L.abef L.jiab L.kldc L.edkl L.cfji [] Q.g_abab_vvvv Q.l2_abab Q.l2_aaaa Q.t2_aaaa Q.t2_abab),
    aug1 X.energy (ein5 L.abfe L.jiab L.kldc L.dekl L.fcji [] Q.g_abab_vvvv Q.l2_abab Q.l2_abab Q.t2_abab Q.t2_abab),
    aug1 X.energy (ein5 L.abef L.jiab L.klcd L.edkl L.cfji [] Q.g_abab_vvvv Q.l2_abab Q.l2_abab Q.t2_abab Q.t2_abab),
    aug1 X.energy (ein5 L.abfe L.jiab L.lkdc L.delk L.fcji [] Q.g_abab_vvvv Q.l2_abab Q.l2_abab Q.t2_abab Q.t2_abab),
    aug1 X.energy (ein5 L.abef L.jiab L.lkcd L.edlk L.cfji [] Q.g_abab_vvvv Q.l2_abab Q.l2_abab Q.t2_abab Q.t2_abab),
    aug1 X.energy (ein5 L.abfe L.jiab L.kldc L.edkl L.fcji [] Q.g_abab_vvvv Q.l2_abab Q.l2_bbbb Q.t2_bbbb Q.t2_abab),
    aug1 X.energy (ein5 L.baef L.ijba L.kldc L.dekl L.fcij [] Q.g_bbbb_vvvv Q.l2_bbbb Q.l2_abab Q.t2_abab Q.t2_bbbb),
    aug1 X.energy (ein5 L.baef L.ijba L.lkdc L.delk L.fcij [] Q.g_bbbb_vvvv Q.l2_bbbb Q.l2_abab Q.t2_abab Q.t2_bbbb),
    aug1 X.energy (ein5 L.baef L.ijba L.kldc L.edkl L.fcij [] Q.g_bbbb_vvvv Q.l2_bbbb Q.l2_bbbb Q.t2_bbbb Q.t2_bbbb),
    aug1 X.energy (ein5 L.baef L.ijba L.kldc L.edjl L.fcik [] Q.g_aaaa_vvvv Q.l2_aaaa Q.l2_aaaa Q.t2_aaaa Q.t2_aaaa),
    aug1 X.energy (ein5 L.baef L.ijba L.klcd L.edjl L.fcik [] Q.g_aaaa_vvvv Q.l2_aaaa Q.l2_abab Q.t2_abab Q.t2_aaaa),
    aug1 X.energy (ein5 L.baef L.ijba L.lkdc L.edjl L.fcik [] Q.g_aaaa_vvvv Q.l2_aaaa Q.l2_abab Q.t2_aaaa Q.t2_abab),
    aug1 X.energy (ein5 L.baef L.ijba L.kldc L.edjl L.fcik [] Q.g_aaaa_vvvv Q.l2_aaaa Q.l2_bbbb Q.t2_abab Q.t2_abab),
    aug1 X.energy (ein5 L.bafe L.ijba L.kldc L.delj L.fcik [] Q.g_abab_vvvv Q.l2_abab Q.l2_aaaa Q.t2_abab Q.t2_aaaa),
    aug1 X.energy (ein5 L.bafe L.ijba L.klcd L.edjl L.fcik [] Q.g_abab_vvvv Q.l2_abab Q.l2_abab Q.t2_bbbb Q.t2_aaaa),
    aug1 X.energy (ein5 L.bafe L.ijba L.lkdc L.delj L.fcik [] Q.g_abab_vvvv Q.l2_abab Q.l2_abab Q.t2_abab Q.t2_abab),
    aug1 X.energy (ein5 L.baef L.ijba L.lkcd L.edlj L.cfik [] Q.g_abab_vvvv Q.l2_abab Q.l2_abab Q.t2_abab Q.t2_abab),
    aug1 X.energy (ein5 L.bafe L.ijba L.kldc L.edjl L.fcik [] Q.g_abab_vvvv Q.l2_abab Q.l2_bbbb Q.t2_bbbb Q.t2_abab),
    aug1 X.energy (ein5 L.abfe L.ijab L.kldc L.delj L.fcik [] Q.g_abab_vvvv Q.l2_abab Q.l2_aaaa Q.t2_abab Q.t2_aaaa),
    aug1 X.energy (ein5 L.abfe L.ijab L.klcd L.edjl L.fcik [] Q.g_abab_vvvv Q.l2_abab Q.l2_abab Q.t2_bbbb Q.t2_aaaa),
    aug1 X.energy (ein5 L.abfe L.ijab L.lkdc L.delj L.fcik [] Q.g_abab_vvvv Q.l2_abab Q.l2_abab Q.t2_abab Q.t2_abab),
    aug1 X.energy (ein5 L.abef L.ijab L.lkcd L.edlj L.cfik [] Q.g_abab_vvvv Q.l2_abab Q.l2_abab Q.t2_abab Q.t2_abab),
    aug1 X.energy (ein5 L.abfe L.ijab L.kldc L.edjl L.fcik [] Q.g_abab_vvvv Q.l2_abab Q.l2_bbbb Q.t2_bbbb Q.t2_abab),
    aug1 X.energy (ein5 L.baef L.jiba L.kldc L.edjl L.cfki [] Q.g_abab_vvvv Q.l2_abab Q.l2_aaaa Q.t2_aaaa Q.t2_abab),
    aug1 X.energy (ein5 L.bafe L.jiba L.kldc L.dejl L.fcki [] Q.g_abab_vvvv Q.l2_abab Q.l2_abab Q.t2_abab Q.t2_abab),
    aug1 X.energy (ein5 L.baef L.jiba L.klcd L.edjl L.cfki [] Q.g_abab_vvvv Q.l2_abab Q.l2_abab Q.t2_abab Q.t2_abab),
    aug1 X.energy (ein5 L.baef L.jiba L.lkdc L.edjl L.fcik [] Q.g_abab_vvvv Q.l2_abab Q.l2_abab Q.t2_aaaa Q.t2_bbbb),
    aug1 X.energy (ein5 L.baef L.jiba L.kldc L.edjl L.fcik [] Q.g_abab_vvvv Q.l2_abab Q.l2_bbbb Q.t2_abab Q.t2_bbbb),
    aug1 X.energy (ein5 L.abef L.jiab L.kldc L.edjl L.cfki [] Q.g_abab_vvvv Q.l2_abab Q.l2_aaaa Q.t2_aaaa Q.t2_abab),
    aug1 X.energy (ein5 L.abfe L.jiab L.kldc L.dejl L.fcki [] Q.g_abab_vvvv Q.l2_abab Q.l2_abab Q.t2_abab Q.t2_abab),
    aug1 X.energy (ein5 L.abef L.jiab L.klcd L.edjl L.cfki [] Q.g_abab_vvvv Q.l2_abab Q.l2_abab Q.t2_abab Q.t2_abab),
    aug1 X.energy (ein5 L.abef L.jiab L.lkdc L.edjl L.fcik [] Q.g_abab_vvvv Q.l2_abab Q.l2_abab Q.t2_aaaa Q.t2_bbbb),
    aug1 X.energy (ein5 L.abef L.jiab L.kldc L.edjl L.fcik [] Q.g_abab_vvvv Q.l2_abab Q.l2_bbbb Q.t2_abab Q.t2_bbbb),
    aug1 X.energy (ein5 L.baef L.ijba L.kldc L.delj L.cfki [] Q.g_bbbb_vvvv Q.l2_bbbb Q.l2_aaaa Q.t2_abab Q.t2_abab),
    aug1 X.energy (ein5 L.baef L.ijba L.klcd L.edjl L.cfki [] Q.g_bbbb_vvvv Q.l2_bbbb Q.l2_abab Q.t2_bbbb Q.t2_abab),
    aug1 X.energy (ein5 L.baef L.ijba L.lkdc L.delj L.fcik [] Q.g_bbbb_vvvv Q.l2_bbbb Q.l2_abab Q.t2_abab Q.t2_bbbb),
    aug1 X.energy (ein5 L.baef L.ijba L.kldc L.edjl L.fcik [] Q.g_bbbb_vvvv Q.l2_bbbb Q.l2_bbbb Q.t2_bbbb Q.t2_bbbb)]
  ret := [Q.energy]

end Verif.Shape.Prog
