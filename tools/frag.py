"""Write Verif/Props/Sizes.lean: two systems without interaction, for every function of Verif/Fn."""
import re, glob, os
R = os.path.join(os.path.dirname(os.path.abspath(__file__)), '..', 'lean', 'Verif')
DONE = {'ccd_t2residual', 'doubles_resLCCDoffset', 'ccdEnergy', 'ccd_t2_aaaa', 'ccd_t2_abab', 'ccd_t2_bbbb',
        'ccd_energy_with_spin', 'residQf1', 'residQf2', 'energy_pertQf', 'residQf1_aaaa', 'residQf1_abab',
        'residQf1_bbbb', 'residQf2_aaaa', 'residQf2_abab', 'residQf2_bbbb', 'si_energy_pertQf', 'fifthOrder_capC'}
GROUPS = [
 ('ccsd', 'CCSD', ['spinorbitalCCSDE', 'spinorbitalCCDE', 'ccsd_t1resid', 'ccsd_t2resid']),
 ('ccsdt', 'CCSDT', ['ccsdt_t1eqns', 'ccsdt_t2eqns', 'ccsdt_t3eqns']),
 ('ccdq', 'CCDQ', ['ccdq_t2eqns', 'ccdq_t4eqns']),
 ('triples', 'Perturbative triples', ['build_T3', 'pdagq_T3energy', 'pdagq_ccsd_energy', 'fifthOrder_capA', 'contractE',
   'build_T3_thirdO', 'build_T3_secondO', 'build_netT2', 'getE_squareBrackT', 'getE_parenT_t1', 'get_netT1_fromT2',
   'get_netT1_thirdO', 'get_T2resid_fromT1bar']),
 ('ucc4', 'UCC(4)', ['t1_residEqns', 't3_resid', 'offset_t2resid_t2squared', 'offset_t2resid_t2dag_w_t2',
   'offset_t2resid_T1_T3']),
 ('quadruples', 'Quadruples residuals and their corrections', ['unsym_residQf1', 'unsym_residQf2', 'optWnT3', 'optWnT2sqr', 'T3portion_Qf',
   'build_approxT3', 'wnT2T3_toT4', 'wnT2cubed_toT4', 'wnT2cubed_toT2', 'wnT2T3_toT2', 't4_test_residual',
   't4_test_residual_oo']),
 ('xccd', 'XCCD', ['xccd5_quad', 'xccd6_quad', 'get_xcc7residual', 'get_xcc8residual', 'get_xcc9residual']),
 ('spin_ccsdt', 'Spin-integrated CCSDT', ['ccsd_energy_with_spin', 'ccsdt_t1_aa', 'ccsdt_t1_bb', 'ccsdt_t2_aaaa', 'ccsdt_t2_bbbb',
   'ccsdt_t2_abab', 'ccsdt_t3_aaaaaa', 'ccsdt_t3_aabaab', 'ccsdt_t3_abbabb', 'ccsdt_t3_bbbbbb']),
 ('spin_ccdq', 'Spin-integrated CCDQ', ['ccdq_t2_aaaa', 'ccdq_t2_bbbb', 'ccdq_t2_abab', 'ccdq_t4_aaaaaaaa', 'ccdq_t4_aaabaaab',
   'ccdq_t4_aabbaabb', 'ccdq_t4_abbbabbb', 'ccdq_t4_bbbbbbbb']),
 ('spin_pert', 'Spin-integrated perturbative corrections', ['si_energy_pertQf_t4', 'approxT3_aaaaaa', 'approxT3_aabaab', 'approxT3_abbabb',
   'approxT3_bbbbbb', 'square_brakT', 'test_t2_aaaa', 'test_t2_abab', 'test_t2_bbbb']),
 ('spin_t4', 'Spin-integrated quadruples from doubles', None),
]
fns = {}
mods = []
for f in sorted(glob.glob(R + '/Fn/*.lean')):
    mods.append(os.path.basename(f)[:-5])
    for m in re.finditer(r'^def (\w+) \(A : (S[OI]) I K\) ?(?:\(([\w ]+) : I\))? : K', open(f).read(), re.M):
        fns[m[1]] = (m[2], len((m[3] or '').split()))
named = {x for g in GROUPS if g[2] for x in g[2]}
rest = [x for x in fns if x not in named and x not in DONE]
pcc = [x for x in rest if x == 'pccdEnergy']
rest = [x for x in rest if x != 'pccdEnergy']
GROUPS = [(a, b, c if c is not None else rest) for a, b, c in GROUPS]
out = ['import Verif.Props.Fragments'] + ['import Verif.Fn.' + m for m in mods]
out.append('''
/-!
# Two systems without interaction: the other methods (C63)

Written by `tools/frag.py`. C40 and C41 are about CCD and the factorised quadruples; here are the remaining functions of
`Verif/Fn`. One function is not of this kind: `wicked_T3corr.get_fifthOrder` builds an array without connection between
its factors and contracts it afterwards.
-/

namespace Verif.Props

open Verif.Ein Verif.UT2

variable {I J K : Type} [Field K] [Inhabited I] [Inhabited J] (D : Nat → Finset I) (E : Nat → Finset J)
''')
L = 'abcdijkl'
for n in (2, 6, 8):
    v = ' '.join(L[:n])
    arr = lambda X: ' → '.join([X] * n)
    il = ' '.join(f'(.inl {x})' for x in L[:n]); ir = ' '.join(f'(.inr {x})' for x in L[:n]); ls = ', '.join(L[:n])
    out.append(f'''/-- A function of {n} orbitals of both systems is made of two functions of one system. -/
structure Splits{n} (F : {arr('(I ⊕ J)')} → K) (f : {arr('I')} → K)
    (g : {arr('J')} → K) : Prop where
  left : ∀ {v}, F {il} = f {v}
  right : ∀ {v}, F {ir} = g {v}
  mixed : ∀ {v}, Mixed [{ls}] → F {v} = 0
''')
    for S in ('SO', 'SI'):
        out.append(f'''theorem splits{n}_{S.lower()} (A : {S} I K) (B : {S} J K) (P : Prog) (hc : P.connected = true) (hP : P.closed {n} = true)
    (hw : P.wf {n} = true) :
    Splits{n} (fun {v} => P.eval (sumD D E) (A.sum B).T [{ls}]) (fun {v} => P.eval D A.T [{ls}])
      (fun {v} => P.eval E B.T [{ls}]) where
  left {v} := Prog.sum_inl D E _ A.T ({S}.sum_T_inl A B) ({S}.sum_T_same A B) {n} (by decide) P hc hP [{ls}] rfl
  right {v} := Prog.sum_inr D E _ B.T ({S}.sum_T_inr A B) ({S}.sum_T_same A B) {n} (by decide) P hc hP [{ls}] rfl
  mixed {v} hm := Prog.eval_mixed Sum.isLeft _ _ ({S}.sum_T_same A B) {n} P hc hP hw [{ls}] rfl hm.not_same
''')
for key, title, names in GROUPS:
    S = fns[names[0]][0]
    st, pf = [], []
    for x in names:
        s, n = fns[x]
        assert s == S, x
        dk = '(by decide +kernel)'
        if n == 0:
            st.append(f'{x} (sumD D E) (A.sum B) = {x} D A + {x} E B')
            pf.append(f'Prog.sum_number D E _ A.T B.T ({S}.sum_T_inl A B) ({S}.sum_T_inr A B) ({S}.sum_T_same A B) Gen.{x}\n      {dk} {dk}')
        else:
            k = '' if n == 4 else str(n)
            st.append(f'Splits{k} ({x} (sumD D E) (A.sum B)) ({x} D A) ({x} E B)')
            pf.append(f'splits{k}_{S.lower()} D E A B Gen.{x} {dk} {dk} {dk}')
    out.append(f'/-- {title}: energies add, residuals have no entries between the systems. -/')
    out.append(f'theorem C63_{key} (A : {S} I K) (B : {S} J K) :\n    ' + ' ∧\n    '.join(st) + ' :=\n  ⟨' + ',\n   '.join(pf) + '⟩\n')
out.append(open(os.path.join(os.path.dirname(os.path.abspath(__file__)), 'frag_tail.txt')).read())
open(R + '/Props/Sizes.lean', 'w').write('\n'.join(out))
print(rest, pcc)
