"""Writes Ein/ChargeArrays.lean (arrays that conserve charges) and Props/Selection.lean (every function conserves them)."""
import os, re, glob, json
from names import SO_FIELDS, SI_FIELDS, TABLE, RANK
H = os.path.dirname(os.path.abspath(__file__))
R = os.path.join(H, '..', 'lean', 'Verif')
V = ["p", "q", "r", "s", "u", "v", "w", "z"]
out = ['''import Verif.Ein.ChargeCol
import Verif.Ein.RotArrays

/-!
# Arrays that conserve a charge (written by `/verif/tools/charge.py`)

`κ p` is the charge of orbital `p`: spin projection, momentum, or irreducible representation of an abelian point group.
In the spin-integrated case `κa` and `κb` are the charges of alpha and beta orbitals.
-/

namespace Verif.Ein

variable {I K G : Type} [Field K] [AddCommGroup G]

/-- Charges by colour: 0 for alpha, otherwise beta. -/
def spinQ (κa κb : I → G) (c : Nat) : I → G := if c = 0 then κa else κb
''']
def spins(name):
    s = name.split('_')[1] if '_' in name else None
    return s
for S, fields in (("SO", SO_FIELDS), ("SI", SI_FIELDS)):
    ks = "(κ : I → G)" if S == "SO" else "(κa κb : I → G)"
    out.append("/-- Entries vanish unless the charges of the first half of the indices have the same sum as those of the second. -/")
    out.append(f"structure {S}.Conserves {ks} (A : {S} I K) : Prop where")
    for f in fields:
        n = RANK[f.split('_')[0]]
        h = n // 2
        sp = spins(f)
        ch = lambda j: ("κ %s" if sp is None else "κ" + sp[j] + " %s") % V[j]
        out.append(f"  {f} : ∀ {' '.join(V[:n])}, A.{f} {' '.join(V[:n])} ≠ 0 → {' + '.join(ch(j) for j in range(h))} = {' + '.join(ch(j) for j in range(h, n))}")
    call = "κ" if S == "SO" else "κa κb"
    qc = "(fun _ => κ)" if S == "SO" else "(spinQ κa κb)"
    out.append("")
    out.append(f"theorem {S}.Conserves.T {{{call} : I → G}} {{A : {S} I K}} (hA : A.Conserves {call}) (t : Nat) (l : List I) (h : A.T t l ≠ 0) :")
    out.append(f"    ColBalanced {qc} (l.zip ({S}.col t)) := by")
    for f in fields:
        i = TABLE[f][0]
        n = RANK[f.split('_')[0]]
        xs = ["x%d" % j for j in range(n)]
        pat = "_ | ⟨y, l⟩"
        for x in reversed(xs): pat = "_ | ⟨%s, %s⟩" % (x, pat)
        out.append(f'''  by_cases h{i} : t = {i}
  · subst h{i}
    have hl : l.length = {n} := by
      by_contra e
      exact h (at{n}_ne A.{f} l e)
    rcases l with {pat} <;> simp at hl
    have e := hA.{f} {' '.join(xs)} h
    simpa [ColBalanced, colSum, {S}.col, half1, half2{", spinQ" if S == "SI" else ""}, add_assoc] using e''')
    out.append(f"  refine absurd ?_ h\n  unfold {S}.T\n  simp [{', '.join('h%d' % TABLE[f][0] for f in fields)}]\n")
out.append("end Verif.Ein\n")
open(R + '/Ein/ChargeArrays.lean', 'w').write('\n'.join(out))

# Props
src = open(os.path.join(H, 'rotprops.py')).read()
ns = {'__file__': os.path.join(H, 'rotprops.py')}
exec(src[:src.index("out = ['import")], ns)
GROUPS, fns, mods = ns['GROUPS'], ns['fns'], ns['mods']
out = ['import Verif.Ein.ChargeArrays', 'import Verif.Model.Resid', 'import Verif.Lemmas.Witness'] + ['import Verif.Fn.' + m for m in mods]
out.append('''
/-!
# Selection rules (C67)

Written by `tools/charge.py`. If the integrals and amplitudes conserve a charge, so do the results of all functions: an
element is zero unless the charges of its orbitals balance.
-/

namespace Verif.Props

open Verif.Ein Verif.UT2

variable {I K G : Type} [Field K] [AddCommGroup G] [Inhabited I] (D : Nat → Finset I)
''')
for n in (2, 4, 6, 8):
    h = n // 2
    xs = ' '.join('x%d' % j for j in range(n)); xl = ', '.join('x%d' % j for j in range(n))
    s = lambda f: ' + '.join(f(j) for j in range(h)) + ' = ' + ' + '.join(f(j) for j in range(h, n))
    out.append(f'''theorem select{n}_so {{κ : I → G}} {{A : SO I K}} (hA : A.Conserves κ) (P : Prog) (hP : P.conserves SO.col [{', '.join(['0'] * n)}] = true)
    ({xs} : I) (h : P.eval D A.T [{xl}] ≠ 0) : {s(lambda j: 'κ x%d' % j)} := by
  simpa [ColBalanced, colSum, half1, half2, add_assoc] using Prog.eval_col (fun _ => κ) D SO.col A.T hA.T _ P hP [{xl}] rfl h

theorem select{n}_si {{κa κb : I → G}} {{A : SI I K}} (hA : A.Conserves κa κb) (P : Prog) ({' '.join('c%d' % j for j in range(n))} : Nat)
    (hP : P.conserves SI.col [{', '.join('c%d' % j for j in range(n))}] = true) ({xs} : I) (h : P.eval D A.T [{xl}] ≠ 0) :
    {s(lambda j: 'spinQ κa κb c%d x%d' % (j, j))} := by
  simpa [ColBalanced, colSum, half1, half2, add_assoc] using Prog.eval_col (spinQ κa κb) D SI.col A.T hA.T _ P hP [{xl}] rfl h
''')
for key, title, names in GROUPS:
    S = fns[names[0]][0]
    st, pf = [], []
    for x in names:
        s, n, g, sp, cs = fns[x]
        assert s == S, x
        if n == 0: continue
        v, o = iter('abcd'), iter('ijkl')
        ls = [next(v) if q else next(o) for q in sp]
        kk = lambda j: ('κ' if S == 'SO' else 'κb' if cs[j] else 'κa') + ' ' + ls[j]
        h = n // 2
        st.append(f"(∀ {' '.join(ls)}, {x} D A {' '.join(ls)} ≠ 0 → {' + '.join(kk(j) for j in range(h))} = {' + '.join(kk(j) for j in range(h, n))})")
        ca = '' if S == 'SO' else ' ' + ' '.join(map(str, cs))
        pf.append(f"select{n}_{S.lower()} D hA Gen.{g}{ca} (by decide +kernel)")
    if not st: continue
    ks = '{κ : I → G}' if S == 'SO' else '{κa κb : I → G}'
    kc = 'κ' if S == 'SO' else 'κa κb'
    out.append(f'/-- {title}: an element is zero unless the charges of its orbitals balance. -/')
    out.append(f"theorem C67_{key} {ks} {{A : {S} I K}} (hA : A.Conserves {kc}) :\n    " + ' ∧\n    '.join(st) + ' :=\n  ' + ('⟨' + ',\n   '.join(pf) + '⟩\n' if len(pf) > 1 else pf[0] + '\n'))
tail = os.path.join(H, 'charge_tail.txt')
out.append(open(tail).read() if os.path.exists(tail) else 'end Verif.Props\n')
open(R + '/Props/Selection.lean', 'w').write('\n'.join(out))
