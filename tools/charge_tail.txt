omit [Inhabited I] in
/-- Sums and scalings of quantities that vanish for unbalanced charges vanish there. -/
theorem update_ne {p : Prop} {r t d e : K} (hr : r ≠ 0 → p) (ht : t ≠ 0 → p) (h : (r + d * t) * e ≠ 0) : p := by
  by_contra hp
  have h1 : r = 0 := by by_contra h; exact hp (hr h)
  have h2 : t = 0 := by by_contra h; exact hp (ht h)
  exact h (by rw [h1, h2]; ring)

omit [Inhabited I] in
theorem add_ne {p : Prop} {r t : K} (hr : r ≠ 0 → p) (ht : t ≠ 0 → p) (h : r + t ≠ 0) : p := by
  by_contra hp
  have h1 : r = 0 := by by_contra h; exact hp (hr h)
  have h2 : t = 0 := by by_contra h; exact hp (ht h)
  exact h (by rw [h1, h2]; ring)

omit [Inhabited I] in
theorem mul_ne {p : Prop} {c r : K} (hr : r ≠ 0 → p) (h : c * r ≠ 0) : p := hr (right_ne_zero_of_mul h)

omit [Inhabited I] in
theorem neg_ne {p : Prop} {r t : K} (hr : r ≠ 0 → p) (ht : t ≠ 0 → p) (h : r - t ≠ 0) : p := by
  rw [sub_eq_add_neg] at h
  exact add_ne hr (fun e => ht (neg_ne_zero.1 e)) h

/-- One pass of the spin-orbital codes (CCD, LCCD, pCCD, XCCD, UCCD) conserves the charge, if the added terms `x` do. -/
theorem C67_step_slow [DecidableEq I] {κ : I → G} (cc_type : String) (x : SO I K → I → I → I → I → K) (d2 : I → I → I → I → K)
    (hx : ∀ B : SO I K, B.Conserves κ → ∀ a b i j, x B a b i j ≠ 0 → κ a + κ b = κ i + κ j)
    {A : SO I K} (hA : A.Conserves κ) : (residMainSlow D cc_type x d2 A).Conserves κ := by
  refine { hA with t2 := fun a b i j h => ?_ }
  obtain ⟨h1, h2⟩ := C67_ccd D hA
  have hr : residSlow D cc_type x A a b i j ≠ 0 → κ a + κ b = κ i + κ j := by
    unfold residSlow
    split_ifs
    · exact add_ne (h1 a b i j) (hx A hA a b i j)
    · exact add_ne (neg_ne (h1 a b i j) (h2 a b i j)) (hx A hA a b i j)
    · exact add_ne (h1 a b i j) (hx A hA a b i j)
  simp only [residMainSlow] at h
  split_ifs at h
  · exact update_ne hr (hA.t2 a b i j) h
  · exact absurd rfl h
  · exact update_ne hr (hA.t2 a b i j) h

/-- One pass of UCC(4) conserves the charge. -/
theorem C67_step_ucc4 {κ : I → G} (d1 : I → I → K) (d2 : I → I → I → I → K) (d3 : I → I → I → I → I → I → K)
    {A : SO I K} (hA : A.Conserves κ) : (residUcc4 D d1 d2 d3 A).Conserves κ := by
  let B : SO I K := { A with l2 := fun i j a b => A.t2 a b i j }
  have hB : B.Conserves κ := { hA with l2 := fun i j a b h => (hA.t2 a b i j h).symm }
  obtain ⟨c1, _⟩ := C67_ccd D hB
  obtain ⟨u1, u3, o1, o2, o3⟩ := C67_ucc4 D hB
  exact { hA with
    t1 := fun a i h => update_ne (u1 a i) (hA.t1 a i) h
    t2 := fun a b i j h => update_ne (add_ne (add_ne (neg_ne (c1 a b i j) (o1 a b i j)) (o2 a b i j)) (o3 a b i j)) (hA.t2 a b i j) h
    t3 := fun a b c i j k h => update_ne (u3 a b c i j k) (hA.t3 a b c i j k) h }

/-- One iteration of the spin-integrated loop conserves the charge; alpha and beta orbitals may have different charges. -/
theorem C67_step {κa κb : I → G} (cc_type : String) (d2aa d2bb d2ab : I → I → I → I → K) {A : SI I K} (hA : A.Conserves κa κb) :
    (iterSi D cc_type d2aa d2bb d2ab A).Conserves κa κb := by
  have hB : (set_l2amps A).Conserves κa κb := { hA with
    l2_aaaa := fun i j a b h => (hA.t2_aaaa a b i j h).symm
    l2_bbbb := fun i j a b h => (hA.t2_bbbb a b i j h).symm
    l2_abab := fun i j a b h => (hA.t2_abab a b i j h).symm }
  obtain ⟨c1, c2, c3⟩ := C67_spin_ccd D hB
  obtain ⟨q1, q2, q3, r1, r2, r3⟩ := C67_spin_qf D hB
  exact { hB with
    t2_aaaa := fun a b i j h => update_ne (add_ne (add_ne (c1 a b i j) (mul_ne (q1 a b i j))) (mul_ne (r1 a b i j))) (hB.t2_aaaa a b i j) h
    t2_abab := fun a b i j h => update_ne (add_ne (add_ne (c2 a b i j) (mul_ne (q2 a b i j))) (mul_ne (r2 a b i j))) (hB.t2_abab a b i j) h
    t2_bbbb := fun a b i j h => update_ne (add_ne (add_ne (c3 a b i j) (mul_ne (q3 a b i j))) (mul_ne (r3 a b i j))) (hB.t2_bbbb a b i j) h }

/-- All iterations of the spin-integrated CCD, CCDQf-1 and CCDQf-2 conserve the charge. -/
theorem C67_iterates {κa κb : I → G} (cc_type : String) (d2aa d2bb d2ab : I → I → I → I → K) {A : SI I K} (hA : A.Conserves κa κb) (n : Nat) :
    ((iterSi D cc_type d2aa d2bb d2ab)^[n] A).Conserves κa κb := by
  induction n with
  | zero => exact hA
  | succ n ih => rw [Function.iterate_succ_apply']; exact C67_step D cc_type d2aa d2bb d2ab ih

/-- All iterations of the spin-orbital codes conserve the charge. -/
theorem C67_iterates_slow [DecidableEq I] {κ : I → G} (cc_type : String) (x : SO I K → I → I → I → I → K) (d2 : I → I → I → I → K)
    (hx : ∀ B : SO I K, B.Conserves κ → ∀ a b i j, x B a b i j ≠ 0 → κ a + κ b = κ i + κ j)
    {A : SO I K} (hA : A.Conserves κ) (n : Nat) : ((residMainSlow D cc_type x d2)^[n] A).Conserves κ := by
  induction n with
  | zero => exact hA
  | succ n ih => rw [Function.iterate_succ_apply']; exact C67_step_slow D cc_type x d2 hx ih

/-- All iterations of UCC(4) conserve the charge. -/
theorem C67_iterates_ucc4 {κ : I → G} (d1 : I → I → K) (d2 : I → I → I → I → K) (d3 : I → I → I → I → I → I → K)
    {A : SO I K} (hA : A.Conserves κ) (n : Nat) : ((residUcc4 D d1 d2 d3)^[n] A).Conserves κ := by
  induction n with
  | zero => exact hA
  | succ n ih => rw [Function.iterate_succ_apply']; exact C67_step_ucc4 D d1 d2 d3 ih

/-- Even and odd orbitals have the charges 0 and 1. -/
def oddCharge (p : ℕ) : ℤ := (p % 2 : ℕ)

/-- The entries of the witness that conserve this charge. -/
def oddPart : SO ℕ ℚ where
  f p q := if p % 2 = q % 2 then Witness.so.f p q else 0
  g p q r s := if p % 2 + q % 2 = r % 2 + s % 2 then Witness.so.g p q r s else 0
  t2 p q r s := if p % 2 + q % 2 = r % 2 + s % 2 then Witness.so.t2 p q r s else 0

/-- Arrays that conserve a charge and whose residual is not zero. -/
example : oddPart.Conserves oddCharge ∧ ccd_t2residual Witness.D oddPart 2 3 0 1 ≠ 0 := by
  refine ⟨?_, by decide +kernel⟩
  constructor <;> intros <;> simp_all [oddPart, oddCharge] <;> omega

end Verif.Props
