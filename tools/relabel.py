"""Writes Props/Relabel.lean (C42): every modelled einsum function commutes with relabelling orbitals."""
from specs import load
from gen import modules

GROUPS = [
    ("so_ccd", "Spin-orbital CCD and LCCD, `t2residEqnsSlow.py`, `t2energySlow.py`", ["Ccd"]),
    ("so_ccsd", "Spin-orbital CCSD, `cc_eqns.py`, `cc_energy.py`", ["Ccsd"]),
    ("so_ccsdt", "Spin-orbital CCSDT, `ccsdt_eqns.py`", ["Ccsdt"]),
    ("so_ccdq", "Spin-orbital CCDQ, `ccdq_eqns.py`", ["Ccdq"]),
    ("so_qf", "Spin-orbital factorised quadruples", ["Qf"]),
    ("so_triples", "Spin-orbital triples corrections", ["Triples"]),
    ("so_ucc4", "UCC(4), `drive_ucc4.py`", ["Ucc4"]),
    ("si_ccd", "Spin-integrated CCD, `t2residEqns.py`, `t2energy.py`", ["SiCcd"]),
    ("si_qf", "Spin-integrated factorised quadruples", ["SiQf1_aaaa", "SiQf1_abab", "SiQf1_bbbb", "SiQf2_aaaa",
                                                          "SiQf2_abab", "SiQf2_bbbb", "SiQfE", "SiQf"]),
    ("si_ccsdt", "Spin-integrated CCSDT, `fullCCresidEqns.py`, `fullCCenergy.py`",
     ["SiCcsdt"] + ["SiCcsdtT3_%d" % k for k in range(4)]),
    ("si_ccdq", "Spin-integrated CCDQ, `ccdq_resids.py`", ["SiCcdq"] + ["SiCcdqT4_%d" % k for k in range(5)]),
    ("si_t4", "Spin-integrated quadruples, `fullCCenergy.py`", ["SiT4_%d" % k for k in range(5)] +
     ["SiT4cub_%d" % k for k in range(5)]),
    ("si_triples", "Spin-integrated triples, `build_approxT3full.py`, `square_brakT_corr.py`", ["SiT3"]),
    ("si_test", "`testing_modifyT2eqns_with_T4.py`", ["SiTest_aaaa", "SiTest_abab", "SiTest_bbbb"]),
]


def info(nm):
    blks = load(nm)[0]
    w = blks[0].ps[0][1]
    cnt = {"o": iter("ijkl"), "v": iter("abcd")}
    ax = [next(cnt[x[1]]) for x in w]
    return ax, "SI" if any("_" in t for b in blks for t, _ in b.fs) else "SO"


def main():
    mods = modules()
    out = ["import Verif.Ein.Maps\nimport Verif.Model.Resid\nimport Verif.Lemmas.Witness"]
    out += ["import Verif.Fn.All"]
    out.append('''
/-!
# Relabelling orbitals (C42)

Written by `/verif/tools/relabel.py`. `e` renames orbitals, occupied ones among themselves and virtual ones among
themselves; `A.comap e` are the arrays with renamed orbitals, `(A.comap e).g p q r s = A.g (e p) (e q) (e r) (e s)`.
-/

namespace Verif.Props

open Verif.Ein Verif.UT2

variable {I K : Type} [Field K] [Inhabited I] (D : Nat → Finset I) (e : I ≃ I) (hD : ∀ s x, e x ∈ D s ↔ x ∈ D s)

include hD
''')
    for g, doc, ms in GROUPS:
        st, pf = [], []
        for m in ms:
            for nm in mods[m]:
                ax, cls = info(nm)
                if ax:
                    st.append("(∀ %s, %s D (A.comap e) %s = %s D A %s)" % (" ".join(ax), nm, " ".join(ax), nm,
                                                                       " ".join("(e %s)" % x for x in ax)))
                    pf.append("fun %s => Prog.eval_relabel e D hD A.T _ (%s.comap_T e A) %d Gen.%s (by decide +kernel) [%s] rfl"
                              % (" ".join(ax), cls, len(ax), nm, ", ".join(ax)))
                else:
                    st.append("%s D (A.comap e) = %s D A" % (nm, nm))
                    pf.append("Prog.eval_relabel e D hD A.T _ (%s.comap_T e A) 0 Gen.%s (by decide +kernel) [] rfl" % (cls, nm))
        out.append("/-- %s. -/" % doc)
        out.append("theorem C42_%s (A : %s I K) :\n    %s :=\n  ⟨%s⟩\n" % (g, cls, " ∧\n    ".join(st), ",\n   ".join(pf)))
    out.append('''/-- One pass of the spin-orbital residual driver commutes with renaming. -/
theorem C42_step_so [DecidableEq I] (cc_type : String) (d2 : I → I → I → I → K) (A : SO I K) :
    residMainSlow D cc_type (fun _ _ _ _ _ => 0) (fun a b i j => d2 (e a) (e b) (e i) (e j)) (A.comap e) =
      (residMainSlow D cc_type (fun _ _ _ _ _ => 0) d2 A).comap e := by
  obtain ⟨h1, h2, -⟩ := C42_so_ccd D e hD A
  simp only [residMainSlow, residSlow, h1, h2]
  simp [SO.comap]

/-- One iteration of the spin-integrated code commutes with renaming. -/
theorem C42_step_si (cc_type : String) (daa dbb dab : I → I → I → I → K) (A : SI I K) :
    iterSi D cc_type (fun a b i j => daa (e a) (e b) (e i) (e j)) (fun a b i j => dbb (e a) (e b) (e i) (e j))
        (fun a b i j => dab (e a) (e b) (e i) (e j)) (A.comap e) =
      (iterSi D cc_type daa dbb dab A).comap e := by
  have h0 : set_l2amps (A.comap e) = (set_l2amps A).comap e := rfl
  unfold iterSi
  rw [h0]
  generalize set_l2amps A = A
  obtain ⟨h1, h2, h3, -⟩ := C42_si_ccd D e hD A
  obtain ⟨q1, q2, q3, q4, q5, q6, -⟩ := C42_si_qf D e hD A
  simp only [residMain, resid_aaaa, resid_bbbb, resid_abab, h1, h2, h3, q1, q2, q3, q4, q5, q6]
  rfl

/-- All iterates and their energies: a calculation with renamed orbitals gives the renamed amplitudes and the same
energies in every iteration. -/
theorem C42_iterates (cc_type : String) (daa dbb dab : I → I → I → I → K) (A : SI I K) (n : Nat) :
    ∃ B, B = (iterSi D cc_type daa dbb dab)^[n] A ∧
    (iterSi D cc_type (fun a b i j => daa (e a) (e b) (e i) (e j)) (fun a b i j => dbb (e a) (e b) (e i) (e j))
        (fun a b i j => dab (e a) (e b) (e i) (e j)))^[n] (A.comap e) = B.comap e ∧
    ccd_energy_with_spin D (B.comap e) = ccd_energy_with_spin D B := by
  refine ⟨_, rfl, ?_, (C42_si_ccd D e hD _).2.2.2⟩
  induction n with
  | zero => rfl
  | succ n ih => rw [Function.iterate_succ_apply', ih, C42_step_si D e hD, Function.iterate_succ_apply']

omit hD in
/-- The exchange of two virtual orbitals of the concrete system is such a renaming. -/
example : (∀ s x, (Equiv.swap 2 3 : ℕ ≃ ℕ) x ∈ Witness.D s ↔ x ∈ Witness.D s) ∧
    ccdEnergy Witness.D (Witness.so.comap (Equiv.swap 2 3)) = ccdEnergy Witness.D Witness.so := by
  have h : ∀ s x, (Equiv.swap 2 3 : ℕ ≃ ℕ) x ∈ Witness.D s ↔ x ∈ Witness.D s := by
    intro s x
    by_cases h2 : x = 2
    · subst h2; by_cases hs : s = 0 <;> simp [Witness.D, hs]
    by_cases h3 : x = 3
    · subst h3; by_cases hs : s = 0 <;> simp [Witness.D, hs]
    rw [Equiv.swap_apply_of_ne_of_ne h2 h3]
  exact ⟨h, (C42_so_ccd Witness.D _ h _).2.2.1⟩

end Verif.Props
''')
    open("/verif/lean/Verif/Props/Relabel.lean", "w").write("\n".join(out))


main()
