"""Write Verif/Props/Rotate.lean: rotations of the orbitals, for every function of Verif/Fn."""
import re, glob, os, json
R = os.path.join(os.path.dirname(os.path.abspath(__file__)), '..', 'lean', 'Verif')
src = open(os.path.join(os.path.dirname(os.path.abspath(__file__)), 'frag.py')).read()
ns = {}
exec(src[src.index('GROUPS = ['):src.index('fns = {}')], ns)
GROUPS = [('ccd', 'CCD', ['ccdEnergy', 'ccd_t2residual', 'doubles_resLCCDoffset']),
          ('qf', 'Factorised quadruples', ['energy_pertQf', 'residQf1', 'residQf2']),
          ('spin_ccd', 'Spin-integrated CCD', ['ccd_energy_with_spin', 'ccd_t2_aaaa', 'ccd_t2_abab', 'ccd_t2_bbbb']),
          ('spin_qf', 'Spin-integrated factorised quadruples', ['si_energy_pertQf', 'residQf1_aaaa', 'residQf1_abab', 'residQf1_bbbb', 'residQf2_aaaa', 'residQf2_abab', 'residQf2_bbbb'])] + ns['GROUPS']
for i, g in enumerate(GROUPS):
    if g[0] == 'triples': GROUPS[i] = (g[0], g[1], g[2] + ['fifthOrder_capC'])
# ranges and spins of the output axes; the Lean proofs check them
SPACES = json.load(open(os.path.join(os.path.dirname(os.path.abspath(__file__)), 'spaces.json')))
fns, mods = {}, []
for f in sorted(glob.glob(R + '/Fn/*.lean')):
    mods.append(os.path.basename(f)[:-5])
    for m in re.finditer(r'^def (\w+) \(A : (S[OI]) I K\) ?(?:\(([\w ]+) : I\))? : K := Gen\.(\w+)', open(f).read(), re.M):
        n = len((m[3] or '').split())
        sp, cs = SPACES[m[1]]
        fns[m[1]] = (m[2], n, m[4], sp, cs)
named = {x for g in GROUPS if g[2] for x in g[2]}
rest = [x for x in fns if x not in named and x != 'pccdEnergy']
GROUPS = [(a, b, c if c is not None else rest) for a, b, c in GROUPS]
out = ['import Verif.Ein.RotArrays'] + ['import Verif.Fn.' + m for m in mods]
out.append('''
/-!
# Rotations among the occupied and among the virtual orbitals (C68)

Written by `tools/rotprops.py`. `A.rotate O U` are the integrals and amplitudes in the rotated orbitals. Energies do not
change, residuals and corrections are rotated like the amplitudes; alpha and beta orbitals may be rotated differently.
So solutions of the equations are rotated to solutions with the same energy.
-/

namespace Verif.Props

open Verif.Ein Verif.UT2

variable {I K : Type} [DecidableEq I] [Field K] [Inhabited I] {D : Nat → Finset I} (hD : Disjoint (D 0) (D 1))
  {U Ua Ub : I → I → K} (hU : Rotation D U) (ha : Rotation D Ua) (hb : Rotation D Ub)
include hD
''')
X = ['x%d' % k for k in range(8)]
for n in (2, 4, 6, 8):
    for S in ('SO', 'SI'):
        ss = ' '.join('s%d' % k for k in range(n)); cs = ' '.join('c%d' % k for k in range(n))
        lst = lambda p: ', '.join('%s%d' % (p, k) for k in range(n))
        xs = ' '.join(X[:n])
        hx = ' '.join('(h%d : x%d ∈ D s%d)' % (k, k, k) for k in range(n))
        box = 'List.Forall₂.nil'
        for k in reversed(range(n)): box = '.cons h%d (%s)' % (k, box)
        if S == 'SO':
            us = ' '.join(['U'] * n); col = '[' + ', '.join(['0'] * n) + ']'; fU = '(fun _ => U)'; h = '(fun _ => hU)'; call = 'U'; carg = ''; inc = 'hU'
        else:
            us = ' '.join('(spinU Ua Ub c%d)' % k for k in range(n)); col = '[' + lst('c') + ']'; fU = '(spinU Ua Ub)'; h = '(ha.spin hb)'; call = 'Ua Ub'
            carg = f' ({cs} : Nat)'; inc = 'ha hb'
        out.append(f'''include {inc} in
theorem covariant{n}_{S.lower()} (A : {S} I K) (P : Prog) ({ss} : Nat){carg} (hP : P.rotOk {S}.col 200 [{lst('s')}] {col} = true)
    ({xs} : I) {hx} :
    P.eval D (A.rotate (D 0 ∪ D 1) {call}).T [{', '.join(X[:n])}] =
      rot{n} (D 0 ∪ D 1) {us} (fun {xs} => P.eval D A.T [{', '.join(X[:n])}]) {xs} := by
  have hb : Wick.InBox D [{lst('s')}] [{', '.join(X[:n])}] := {box}
  have h2 : ∀ s ∈ [{lst('s')}], s < 2 := by
    simp only [Prog.rotOk, Bool.and_eq_true] at hP
    exact fun s hs => by simpa using List.all_eq_true.1 hP.1.2 s hs
  exact (Prog.eval_rot_out D hD {fU} (Rotation.orthogonal {h}) {S}.col _ _ ({S}.rotate_rot hD {inc} A) 200 _ _ P hP _ hb).trans
    (rotL_box hD {h} {col} [{lst('s')}] rfl h2 _ hb (fun l => P.eval D A.T l)).symm
'''.replace('have hb :', 'have hx :').replace('hP _ hb)', 'hP _ hx)').replace('h2 _ hb (', 'h2 _ hx ('))
for key, title, names in GROUPS:
    S = fns[names[0]][0]
    st, pf = [], []
    call = 'U' if S == 'SO' else 'Ua Ub'
    inc = 'hU' if S == 'SO' else 'ha hb'
    for x in names:
        s, n, g, sp, cs = fns[x]
        assert s == S, x
        dk = '(Prog.paired_of_fast (by decide +kernel))' if n == 0 else '(Prog.rotOk_of_fast (by decide +kernel))'
        if n == 0:
            st.append(f'{x} D (A.rotate (D 0 ∪ D 1) {call}) = {x} D A')
            h = '(fun _ => U) (Rotation.orthogonal fun _ => hU)' if S == 'SO' else '(spinU Ua Ub) (Rotation.orthogonal (ha.spin hb))'
            pf.append(f'Prog.eval_rot D {h} {S}.col _ _ ({S}.rotate_rot hD {inc} A) Gen.{g} {dk}')
        else:
            v, o = iter('abcd'), iter('ijkl')
            ls = [next(v) if q else next(o) for q in sp]
            qs = ', '.join('∀ %s ∈ D %d' % (l, q) for l, q in zip(ls, sp))
            us = ' '.join('U' if S == 'SO' else ('Ua' if c == 0 else 'Ub') for c in cs)
            st.append(f'({qs},\n      {x} D (A.rotate (D 0 ∪ D 1) {call}) {" ".join(ls)} = rot{n} (D 0 ∪ D 1) {us} ({x} D A) {" ".join(ls)})')
            ca = '' if S == 'SO' else ' ' + ' '.join(map(str, cs))
            pf.append(f'fun {" ".join("%s m%s" % (l, l) for l in ls)} => covariant{n}_{S.lower()} hD {inc} A Gen.{g} {" ".join(map(str, sp))}{ca} {dk} {" ".join(ls)} {" ".join("m" + l for l in ls)}')
    out.append(f'include {inc} in\n/-- {title}: energies are invariant, arrays are rotated. -/')
    out.append(f'theorem C68_{key} (A : {S} I K) :\n    ' + ' ∧\n    '.join(st) + ' :=\n  ⟨' + ',\n   '.join(pf) + '⟩\n')
out.append(open(os.path.join(os.path.dirname(os.path.abspath(__file__)), 'rot_tail.txt')).read())
open(R + '/Props/Rotate.lean', 'w').write('\n'.join(out))
