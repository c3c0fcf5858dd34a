omit [DecidableEq I] in
/-- `energy_pertQf` of `fullCCenergy.py`, written with spin orbitals. -/
theorem C83_pertQf_t4 (A : SI I K) (hA : A.Sym) : si_energy_pertQf_t4 D A = 1 / 16 *
    ∑ a ∈ spinD D 1, ∑ b ∈ spinD D 1, ∑ c ∈ spinD D 1, ∑ d ∈ spinD D 1, ∑ i ∈ spinD D 0, ∑ j ∈ spinD D 0,
      ∑ k ∈ spinD D 0, ∑ l ∈ spinD D 0, A.so.g i j a b * A.so.l2 k l c d * A.so.t4 a b c d i j k l := by
  have e := so_eval_of_isZero D A hA _ _ [] _ _ _ Cert.pertQf_t4_spin (by decide +kernel) (by decide +kernel) rfl [] rfl
  refine e.symm.trans ?_
  simp [Gen.pertT4, Prog.eval, Blk.eval, termVal, dums, vars, varsIx, insertNew, sumOver, evalFs, SO.T, sp, N.g, N.l2, N.t4,
    Ein.bind, Function.update, N.aᵥ, N.bᵥ, N.cᵥ, N.dᵥ, N.iₒ, N.jₒ, N.kₒ, N.lₒ, at4, at8, mul_assoc]

/-- The matrix elements are not all zero. -/
example : ∃ (F : Fermi (ℕ × Bool) ℚ (Module.End ℚ (Fock (ℕ × Bool) ℚ)) (spinD Witness.D)) (h : ℕ × Bool → ℕ × Bool → ℚ),
    F.ω (F.bra4 (2, false) (3, false) (2, true) (3, true) (0, false) (1, false) (0, true) (1, true) *
      ((1/2 : ℚ) • com (com (F.fluct h Witness.si.so.f Witness.si.so.g) (F.T2 Witness.si.so.t2)) (F.T2 Witness.si.so.t2) +
        com (F.fluct h Witness.si.so.f Witness.si.so.g) (F.T3 Witness.si.so.t3))) ≠ 0 := by
  obtain ⟨F⟩ := exists_fermi (K := ℚ) (spinD_disjoint (D := Witness.D) (by decide))
  obtain ⟨h, hf⟩ := exists_isFock (D := spinD Witness.D) Witness.si.so
  have e : ccsdtq_t4_aabbaabb Witness.D Witness.si 2 3 2 3 0 1 0 1 ≠ 0 := by decide +kernel
  refine ⟨F, h, ?_⟩
  rwa [← C83_ccsdtq_t4_aabbaabb F (by decide) Witness.si Witness.si_sym h hf 2 3 2 3 0 1 0 1 (by decide) (by decide) (by decide)
    (by decide) (by decide) (by decide) (by decide) (by decide)]

end Verif.Props
