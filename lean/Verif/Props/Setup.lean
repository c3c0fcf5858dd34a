import Verif.Lemmas.Setup
import Verif.Props.SpinCcd
import Verif.Ein.Maps
import Mathlib.Tactic.IntervalCases

/-!
# From the SCF result to the arrays (C26, C27, C28, C59, C70)

`I` are the AO integrals `(xy|zw)`, `Ca`, `Cb` the orbital coefficients, `ea`, `eb` the orbital energies, `n` the
number of basis functions, `EriSym I` the eightfold permutational symmetry of real integrals.
-/

namespace Verif.Props

open Verif.Setup Verif.Ein Verif.UT2 Finset

variable {K : Type} [Field K]

/-! ## C26 -/

/-- **C26**, spin-integrated codes: Fock matrices are symmetric, the same-spin integrals change sign when the first
two or the last two indices are exchanged, and all integrals are symmetric under exchange of bra and ket. -/
theorem C26_spin_integrated (n : ℕ) (I : Tei K) (hI : EriSym I) (Fa Fb Ca Cb : Mat K)
    (ha : ∀ x y, Fa x y = Fa y x) (hb : ∀ x y, Fb x y = Fb y x) : (generalUHF n I Fa Fb Ca Cb).Sym := by
  have h1 : ∀ C : Mat K, ∀ p q r s, dirac (general n I C C C C) p q r s = - dirac (general n I C C C C) q p r s := by
    intro C p q r s
    simp only [dirac]
    linear_combination (general_swap hI n C C C C p r q s).trans (general_ket hI n C C C q s p r) -
      (general_swap hI n C C C C p s r q).trans (general_bra hI n C C C r q p s)
  have h2 : ∀ C : Mat K, ∀ p q r s, dirac (general n I C C C C) p q r s = - dirac (general n I C C C C) p q s r := by
    intro C p q r s
    simp only [dirac]
    linear_combination general_ket hI n C C C p r q s - general_ket hI n C C C p s r q
  have h3 : ∀ C : Mat K, ∀ p q r s, dirac (general n I C C C C) p q r s = dirac (general n I C C C C) r s p q := by
    intro C p q r s
    simp only [dirac]
    linear_combination (general_bra hI n C C C p r q s).trans (general_ket hI n C C C r p q s) -
      general_swap hI n C C C C p s r q
  constructor
  case f_aa_herm => exact oneBody_symm ha n Ca
  case f_bb_herm => exact oneBody_symm hb n Cb
  case g_aaaa_anti0 => exact h1 Ca
  case g_aaaa_anti2 => exact h2 Ca
  case g_aaaa_herm => exact h3 Ca
  case g_bbbb_anti0 => exact h1 Cb
  case g_bbbb_anti2 => exact h2 Cb
  case g_bbbb_herm => exact h3 Cb
  case g_abab_herm =>
    intro p q r s
    exact (general_bra hI n Ca Cb Cb p r q s).trans (general_ket hI n Ca Ca Cb r p q s)
  all_goals intros; simp [generalUHF]

/-- Integrals with the eightfold symmetry and a same-spin integral that is not zero. -/
example : EriSym (fun x y z w : ℕ => (((x + y) * (z + w) : ℕ) : ℚ)) ∧
    (generalUHF 2 (fun x y z w => (((x + y) * (z + w) : ℕ) : ℚ)) (fun _ _ => 0) (fun _ _ => 0)
      (fun x p => if x = p then 1 else 0) (fun x p => if x = p then 1 else 0)).g_aaaa 0 1 0 1 = -1 := by
  refine ⟨⟨fun _ _ _ _ => ?_, fun _ _ _ _ => ?_, fun _ _ _ _ => ?_⟩, by decide +kernel⟩ <;> push_cast <;> ring

/-! ## C27 -/

/-- **C27** Entries of `spin_block_tei` (position `x + n` is the beta copy of `x`): zero unless both electrons keep
their spin, otherwise the spatial integral. -/
theorem C27_spin_block_tei (n : ℕ) (I : Tei K) (hI : EriSym I) (x y z w : ℕ) (hx : x < n) (hy : y < n) (hz : z < n)
    (hw : w < n) (a b c d : Bool) :
    spin_block_tei n I (x + a.toNat * n) (y + b.toNat * n) (z + c.toNat * n) (w + d.toNat * n) =
      if a = b ∧ c = d then I x y z w else 0 := by
  simp only [spin_block_tei, kron2, rev, div_mod_spin hx, div_mod_spin hy, div_mod_spin hz, div_mod_spin hw, toNat_inj,
    hI.rev x y z w, eq_comm (a := b) (b := a)]
  by_cases h1 : a = b <;> by_cases h2 : c = d <;> simp [h1, h2]

/-- The integrals over spin orbitals: orbital and spin of each of the four positions, in terms of the spatial
four-index transformation. -/
theorem tmpslow_g (n drop : ℕ) (I : Tei K) (hI : EriSym I) (Ca Cb : Mat K) (ea eb : ℕ → K) (π : Equiv.Perm ℕ)
    (P Q R S p q r s : ℕ) (a b c d : Bool) (hP : lab n (π (P + drop)) = (p, a)) (hQ : lab n (π (Q + drop)) = (q, b))
    (hR : lab n (π (R + drop)) = (r, c)) (hS : lab n (π (S + drop)) = (s, d)) :
    (tmpslow n drop I Ca Cb ea eb π).g P Q R S =
      (if a = c ∧ b = d then general n I (coef Ca Cb a) (coef Ca Cb a) (coef Ca Cb b) (coef Ca Cb b) p r q s else 0) -
      (if a = d ∧ b = c then general n I (coef Ca Cb a) (coef Ca Cb a) (coef Ca Cb b) (coef Ca Cb b) p s q r else 0) := by
  simp only [tmpslow, transform, sum_block, hP, hQ, hR, hS]
  have hg : ∀ x ∈ range n, ∀ y ∈ range n, ∀ z ∈ range n, ∀ w ∈ range n,
      gao n I (x + a.toNat * n) (y + b.toNat * n) (z + c.toNat * n) (w + d.toNat * n) =
        (if a = c ∧ b = d then I x z y w else 0) - (if a = d ∧ b = c then I x w y z else 0) := by
    intro x hx y hy z hz w hw
    rw [mem_range] at hx hy hz hw
    simp only [gao, C27_spin_block_tei n I hI _ _ _ _ hx hz hy hw, C27_spin_block_tei n I hI _ _ _ _ hx hw hy hz]
  have e : ∀ x ∈ range n,
      (∑ y ∈ range n, (∑ z ∈ range n, (∑ w ∈ range n,
        gao n I (x + a.toNat * n) (y + b.toNat * n) (z + c.toNat * n) (w + d.toNat * n) * coef Ca Cb d w s) *
          coef Ca Cb c z r) * coef Ca Cb b y q) * coef Ca Cb a x p =
      (∑ y ∈ range n, (∑ z ∈ range n, (∑ w ∈ range n,
        ((if a = c ∧ b = d then I x z y w else 0) - (if a = d ∧ b = c then I x w y z else 0)) * coef Ca Cb d w s) *
          coef Ca Cb c z r) * coef Ca Cb b y q) * coef Ca Cb a x p := by
    intro x hx
    congr 1
    refine sum_congr rfl fun y hy => ?_
    congr 1
    refine sum_congr rfl fun z hz => ?_
    congr 1
    exact sum_congr rfl fun w hw => by rw [hg x hx y hy z hz w hw]
  rw [sum_congr rfl e]
  clear e hg hP hQ hR hS
  have hA : ∀ (A B C D : Mat K), general n I A B C D p r q s =
      ∑ x ∈ range n, ∑ y ∈ range n, ∑ z ∈ range n, ∑ w ∈ range n, A x p * B z r * C y q * D w s * I x z y w := by
    intro A B C D
    unfold general
    exact sum_congr rfl fun x _ => sum_comm
  have hB : ∀ (A B C D : Mat K), general n I A B C D p s q r =
      ∑ x ∈ range n, ∑ y ∈ range n, ∑ z ∈ range n, ∑ w ∈ range n, A x p * B w s * C y q * D z r * I x w y z := by
    intro A B C D
    unfold general
    refine sum_congr rfl fun x _ => ?_
    rw [sum_comm]
    exact sum_congr rfl fun y _ => sum_comm
  have e1 : (if a = c ∧ b = d then general n I (coef Ca Cb a) (coef Ca Cb a) (coef Ca Cb b) (coef Ca Cb b) p r q s else 0) =
      ∑ x ∈ range n, ∑ y ∈ range n, ∑ z ∈ range n, ∑ w ∈ range n,
        (if a = c ∧ b = d then I x z y w else 0) * coef Ca Cb d w s * coef Ca Cb c z r * coef Ca Cb b y q *
          coef Ca Cb a x p := by
    split_ifs with h
    · obtain ⟨rfl, rfl⟩ := h
      rw [hA]
      exact sum_congr rfl fun x _ => sum_congr rfl fun y _ => sum_congr rfl fun z _ => sum_congr rfl fun w _ => by ring
    · simp
  have e2 : (if a = d ∧ b = c then general n I (coef Ca Cb a) (coef Ca Cb a) (coef Ca Cb b) (coef Ca Cb b) p s q r else 0) =
      ∑ x ∈ range n, ∑ y ∈ range n, ∑ z ∈ range n, ∑ w ∈ range n,
        (if a = d ∧ b = c then I x w y z else 0) * coef Ca Cb d w s * coef Ca Cb c z r * coef Ca Cb b y q *
          coef Ca Cb a x p := by
    split_ifs with h
    · obtain ⟨rfl, rfl⟩ := h
      rw [hB]
      exact sum_congr rfl fun x _ => sum_congr rfl fun y _ => sum_congr rfl fun z _ => sum_congr rfl fun w _ => by ring
    · simp
  rw [e1, e2]
  simp only [sum_mul, ← sum_sub_distrib, sub_mul]

/-- Orbital and spin of the spin orbital at place `P` of the sorted list. -/
def place (n drop : ℕ) (π : Equiv.Perm ℕ) (P : ℕ) : ℕ × Bool := lab n (π (P + drop))

/-- **C27** Both set-ups describe the same Hamiltonian: the integrals of the spin-orbital code, at any four places of
the sorted list, are the spin-orbital integrals (`SI.so`) of the spin-integrated code for the orbitals and spins found
at these places. In particular they vanish unless spin is conserved. -/
theorem C27_same_integrals (n drop : ℕ) (I : Tei K) (hI : EriSym I) (Fa Fb Ca Cb : Mat K) (ea eb : ℕ → K)
    (π : Equiv.Perm ℕ) (P Q R S : ℕ) :
    (tmpslow n drop I Ca Cb ea eb π).g P Q R S =
      (generalUHF n I Fa Fb Ca Cb).so.g (place n drop π P) (place n drop π Q) (place n drop π R) (place n drop π S) := by
  obtain ⟨p, a, hP⟩ : ∃ x y, place n drop π P = (x, y) := ⟨_, _, rfl⟩
  obtain ⟨q, b, hQ⟩ : ∃ x y, place n drop π Q = (x, y) := ⟨_, _, rfl⟩
  obtain ⟨r, c, hR⟩ : ∃ x y, place n drop π R = (x, y) := ⟨_, _, rfl⟩
  obtain ⟨s, d, hS⟩ : ∃ x y, place n drop π S = (x, y) := ⟨_, _, rfl⟩
  rw [tmpslow_g n drop I hI Ca Cb ea eb π P Q R S p q r s a b c d hP hQ hR hS, hP, hQ, hR, hS]
  by_cases hb : a.toNat + b.toNat = c.toNat + d.toNat
  · set A := generalUHF n I Fa Fb Ca Cb with hA
    cases a <;> cases b <;> cases c <;> cases d <;> simp at hb <;> simp [coef]
    · rw [(A.so_g_same p q r s).1]; simp [hA, generalUHF, dirac, general_ket hI n Ca Ca Ca p s r q]
    · rw [(A.so_g_mixed p q r s).1]; simp [hA, generalUHF, diracMixed]
    · rw [(A.so_g_mixed p q r s).2.1]; simp [hA, generalUHF, diracMixed]
    · rw [(A.so_g_mixed p q r s).2.2.1, general_swap hI]; simp [hA, generalUHF, diracMixed]
    · rw [(A.so_g_mixed p q r s).2.2.2, general_swap hI]; simp [hA, generalUHF, diracMixed]
    · rw [(A.so_g_same p q r s).2]; simp [hA, generalUHF, dirac, general_ket hI n Cb Cb Cb p s r q]
  · rw [SI.so_g_zero _ _ _ _ _ _ _ _ _ hb]
    cases a <;> cases b <;> cases c <;> cases d <;> simp at hb <;> simp

/-- The Fock matrices agree as well when the orbitals diagonalise the Fock matrices with the orbital energies as
eigenvalues (`C^T F C = diag(eps)`, what a converged SCF calculation returns). -/
theorem C27_same_fock (n drop : ℕ) (I : Tei K) (Fa Fb Ca Cb : Mat K) (ea eb : ℕ → K) (π : Equiv.Perm ℕ)
    (hfa : ∀ p q, oneBody n Fa Ca p q = if p = q then ea p else 0)
    (hfb : ∀ p q, oneBody n Fb Cb p q = if p = q then eb p else 0) (P Q : ℕ) :
    (tmpslow n drop I Ca Cb ea eb π).f P Q =
      (generalUHF n I Fa Fb Ca Cb).so.f (place n drop π P) (place n drop π Q) := by
  have hinj : place n drop π P = place n drop π Q ↔ P = Q := by
    unfold place
    rw [(lab_injective n).eq_iff, π.injective.eq_iff]; omega
  have hE : appendEps n ea eb (π (P + drop)) = (if (place n drop π P).2 then eb else ea) (place n drop π P).1 := by
    unfold appendEps place lab; split_ifs <;> simp_all
  simp only [tmpslow, hE, ← hinj]
  obtain ⟨p, a⟩ := place n drop π P
  obtain ⟨q, b⟩ := place n drop π Q
  obtain ⟨h1, h2, h3, h4⟩ := (generalUHF n I Fa Fb Ca Cb).so_f p q
  cases a <;> cases b <;> simp [h1, h2, h3, h4] <;> simp [generalUHF, hfa, hfb]

/-- **C26**, spin-orbital codes: the Fock matrix is symmetric, the integrals are antisymmetric in the first two and
the last two indices and symmetric under exchange of bra and ket. -/
theorem C26_spin_orbital (n drop : ℕ) (I : Tei K) (hI : EriSym I) (Ca Cb : Mat K) (ea eb : ℕ → K) (π : Equiv.Perm ℕ) :
    (tmpslow n drop I Ca Cb ea eb π).Sym := by
  have hs := (C26_spin_integrated n I hI (fun _ _ => 0) (fun _ _ => 0) Ca Cb (fun _ _ => rfl) (fun _ _ => rfl)).so
  have hg := C27_same_integrals n drop I hI (fun _ _ => 0) (fun _ _ => 0) Ca Cb ea eb π
  constructor
  case f_herm =>
    intro P Q
    simp only [tmpslow]
    by_cases h : P = Q
    · rw [h]
    · rw [if_neg h, if_neg (Ne.symm h)]
  case g_anti0 => intro P Q R S; rw [hg, hg]; exact hs.g_anti0 _ _ _ _
  case g_anti2 => intro P Q R S; rw [hg, hg]; exact hs.g_anti2 _ _ _ _
  case g_herm => intro P Q R S; rw [hg, hg]; exact hs.g_herm _ _ _ _
  all_goals intros; simp [tmpslow]

/-! ### the interleaved set-up -/

/-- **C27** Entries of the one-body array after the loops of `spinorb_from_spatial` / `spinorb_from_UHFspatial`. -/
theorem C27_spinorb_one (n : ℕ) (ha hb : Mat K) (p q : ℕ) (hp : p < n) (hq : q < n) (a b : Bool) :
    spinorbOne n ha hb (2 * p + a.toNat) (2 * q + b.toNat) =
      if a = b then (if a then hb else ha) p q else 0 := by
  have hm : ∀ w, w ∈ oneWrites n ha hb ↔ ∃ p < n, ∃ q < n,
      w = ((2 * p, 2 * q), ha p q) ∨ w = ((2 * p + 1, 2 * q + 1), hb p q) := by
    intro w; simp [oneWrites]
  unfold spinorbOne
  rw [store_eq _ _ _ ((if a then hb else ha) p q)]
  · have : (∃ w ∈ oneWrites n ha hb, w.1 = (2 * p + a.toNat, 2 * q + b.toNat)) ↔ a = b := by
      constructor
      · rintro ⟨w, hw, e⟩
        obtain ⟨p', -, q', -, rfl | rfl⟩ := (hm w).1 hw <;> cases a <;> cases b <;> simp at e <;> first | rfl | omega
      · rintro rfl
        cases a
        · exact ⟨_, (hm _).2 ⟨p, hp, q, hq, Or.inl rfl⟩, by simp⟩
        · exact ⟨_, (hm _).2 ⟨p, hp, q, hq, Or.inr rfl⟩, by simp⟩
    simp only [this]
  · intro w hw e
    obtain ⟨p', -, q', -, rfl | rfl⟩ := (hm w).1 hw <;> cases a <;> cases b <;> simp at e <;> (try omega) <;>
      (obtain ⟨rfl, rfl⟩ : p' = p ∧ q' = q := by omega) <;> simp

/-- **C27** Entries of the two-body array after the loops (`h[p,q,r,s]` multiplies `p^ q^ r s`: the spins of the outer
and of the inner pair must agree). -/
theorem C27_spinorb_two (n : ℕ) (ta tb tm : Tei K) (p q r s : ℕ) (hp : p < n) (hq : q < n) (hr : r < n) (hs : s < n)
    (a b c d : Bool) :
    spinorbTwo n ta tb tm (2 * p + a.toNat) (2 * q + b.toNat) (2 * r + c.toNat) (2 * s + d.toNat) =
      if a = d ∧ b = c then (if a ≠ b then tm else if a then tb else ta) p q r s else 0 := by
  have hm : ∀ w, w ∈ twoWrites n ta tb tm ↔ ∃ p < n, ∃ q < n, ∃ r < n, ∃ s < n,
      w = ((2 * p, 2 * q + 1, 2 * r + 1, 2 * s), tm p q r s) ∨ w = ((2 * p + 1, 2 * q, 2 * r, 2 * s + 1), tm p q r s) ∨
      w = ((2 * p, 2 * q, 2 * r, 2 * s), ta p q r s) ∨
      w = ((2 * p + 1, 2 * q + 1, 2 * r + 1, 2 * s + 1), tb p q r s) := by
    intro w; simp [twoWrites]
  unfold spinorbTwo
  rw [store_eq _ _ _ ((if a ≠ b then tm else if a then tb else ta) p q r s)]
  · have : (∃ w ∈ twoWrites n ta tb tm,
        w.1 = (2 * p + a.toNat, 2 * q + b.toNat, 2 * r + c.toNat, 2 * s + d.toNat)) ↔ a = d ∧ b = c := by
      constructor
      · rintro ⟨w, hw, e⟩
        obtain ⟨p', -, q', -, r', -, s', -, rfl | rfl | rfl | rfl⟩ := (hm w).1 hw <;>
          simp only [Prod.mk.injEq] at e <;> obtain ⟨e1, e2, e3, e4⟩ := e <;>
          cases a <;> cases b <;> cases c <;> cases d <;> simp at e1 e2 e3 e4 <;> first | (simp; done) | omega
      · rintro ⟨rfl, rfl⟩
        cases a <;> cases b
        · exact ⟨_, (hm _).2 ⟨p, hp, q, hq, r, hr, s, hs, Or.inr (Or.inr (Or.inl rfl))⟩, by simp⟩
        · exact ⟨_, (hm _).2 ⟨p, hp, q, hq, r, hr, s, hs, Or.inl rfl⟩, by simp⟩
        · exact ⟨_, (hm _).2 ⟨p, hp, q, hq, r, hr, s, hs, Or.inr (Or.inl rfl)⟩, by simp⟩
        · exact ⟨_, (hm _).2 ⟨p, hp, q, hq, r, hr, s, hs, Or.inr (Or.inr (Or.inr rfl))⟩, by simp⟩
    simp only [this]
  · intro w hw e
    obtain ⟨p', -, q', -, r', -, s', -, rfl | rfl | rfl | rfl⟩ := (hm w).1 hw <;>
      simp only [Prod.mk.injEq] at e <;> obtain ⟨e1, e2, e3, e4⟩ := e <;>
      cases a <;> cases b <;> cases c <;> cases d <;> simp at e1 e2 e3 e4 <;> (try omega) <;>
      (obtain ⟨rfl, rfl, rfl, rfl⟩ : p' = p ∧ q' = q ∧ r' = r ∧ s' = s := by omega) <;> simp

theorem half_spin {n P : ℕ} (h : P < 2 * n) : ∃ p < n, ∃ a : Bool, P = 2 * p + a.toNat := by
  refine ⟨P / 2, by omega, decide (P % 2 = 1), ?_⟩
  by_cases h1 : P % 2 = 1 <;> simp [h1] <;> omega

/-- **C27** The interleaved set-up (RHF branch of `convertSCFinfo_slow`) describes the same Hamiltonian: spin orbital
`2p` is orbital `p` with alpha spin, `2p+1` with beta spin. -/
theorem C27_slow_integrals (n m : ℕ) (I : Tei K) (hI : EriSym I) (hcore F C : Mat K) (p q r s : ℕ)
    (hp : p < n) (hq : q < n) (hr : r < n) (hs : s < n) (a b c d : Bool) :
    (slowRhf n m I hcore C).g (2 * p + a.toNat) (2 * q + b.toNat) (2 * r + c.toNat) (2 * s + d.toNat) =
      (generalUHF n I F F C C).so.g (p, a) (q, b) (r, c) (s, d) := by
  simp only [slowRhf, C27_spinorb_two n _ _ _ _ _ _ _ hp hq hs hr, C27_spinorb_two n _ _ _ _ _ _ _ hp hq hr hs,
    ite_self]
  set A := generalUHF n I F F C C with hA
  by_cases hb : a.toNat + b.toNat = c.toNat + d.toNat
  · have k := general_ket hI n C C C p s r q
    have w1 := general_swap hI n C C C C p r q s
    have w2 := general_swap hI n C C C C p s q r
    cases a <;> cases b <;> cases c <;> cases d <;> simp at hb <;> simp
    · rw [(A.so_g_same p q r s).1]; simp [hA, generalUHF, dirac, k]
    · rw [(A.so_g_mixed p q r s).1]; simp [hA, generalUHF, diracMixed]
    · rw [(A.so_g_mixed p q r s).2.1]; simp [hA, generalUHF, diracMixed]
    · rw [(A.so_g_mixed p q r s).2.2.1]; simp [hA, generalUHF, diracMixed, w2]
    · rw [(A.so_g_mixed p q r s).2.2.2]; simp [hA, generalUHF, diracMixed, w1]
    · rw [(A.so_g_same p q r s).2]; simp [hA, generalUHF, dirac, k]
  · rw [SI.so_g_zero _ _ _ _ _ _ _ _ _ hb]
    cases a <;> cases b <;> cases c <;> cases d <;> simp at hb <;> simp

theorem sum_range_two_mul (f : ℕ → K) (m : ℕ) :
    ∑ i ∈ range (2 * m), f i = ∑ i ∈ range m, (f (2 * i) + f (2 * i + 1)) := by
  induction m with
  | zero => simp
  | succ m ih => rw [show 2 * (m + 1) = 2 * m + 1 + 1 by ring, sum_range_succ, sum_range_succ, ih, sum_range_succ]; abel

/-- **C27** Its Fock matrix is the closed-shell Fock matrix `h_pq + sum_i (2 (pq|ii) - (pi|iq))` over the doubly
occupied orbitals, for both spins. -/
theorem C27_slow_fock (n m : ℕ) (I : Tei K) (hcore C : Mat K) (hm : m ≤ n) (p q : ℕ)
    (hp : p < n) (hq : q < n) (a b : Bool) :
    (slowRhf n (2 * m) I hcore C).f (2 * p + a.toNat) (2 * q + b.toNat) =
      if a = b then oneBody n hcore C p q +
        ∑ i ∈ range m, (2 * general n I C C C C p q i i - general n I C C C C p i i q) else 0 := by
  simp only [slowRhf, C27_spinorb_one n _ _ _ _ hp hq, sum_range_two_mul, ite_self]
  have e : ∀ i ∈ range m, ∀ x : Bool,
      spinorbTwo n (fun p q r s => general n I C C C C p s q r) (fun p q r s => general n I C C C C p s q r)
        (fun p q r s => general n I C C C C p s q r) (2 * p + a.toNat) (2 * i + x.toNat) (2 * i + x.toNat)
        (2 * q + b.toNat) = (if a = b then general n I C C C C p q i i else 0) ∧
      spinorbTwo n (fun p q r s => general n I C C C C p s q r) (fun p q r s => general n I C C C C p s q r)
        (fun p q r s => general n I C C C C p s q r) (2 * p + a.toNat) (2 * i + x.toNat) (2 * q + b.toNat)
        (2 * i + x.toNat) = (if a = x ∧ x = b then general n I C C C C p i i q else 0) := by
    intro i hi x
    have hi' : i < n := lt_of_lt_of_le (mem_range.1 hi) hm
    rw [C27_spinorb_two n _ _ _ _ _ _ _ hp hi' hi' hq, C27_spinorb_two n _ _ _ _ _ _ _ hp hi' hq hi']
    simp only [ite_self, and_true]
  by_cases hab : a = b
  · subst hab
    simp only [if_true]
    congr 1
    refine sum_congr rfl fun i hi => ?_
    have f0 := e i hi false
    have f1 := e i hi true
    simp only [Bool.toNat_false, Bool.toNat_true, add_zero] at f0 f1
    rw [f0.1, f0.2, f1.1, f1.2]
    cases a <;> simp <;> ring
  · simp only [if_neg hab, zero_add]
    refine sum_eq_zero fun i hi => ?_
    have f0 := e i hi false
    have f1 := e i hi true
    simp only [Bool.toNat_false, Bool.toNat_true, add_zero] at f0 f1
    rw [f0.1, f0.2, f1.1, f1.2]
    cases a <;> cases b <;> simp_all

/-! ## C71 -/

/-- **C71** is violated: a two-body operator does not change when the two electrons are exchanged,
`h[p,q,r,s] = h[q,p,s,r]`, but `spinorb_from_UHFspatial` writes the same mixed integral for the alpha-beta and for the
beta-alpha entry instead of the transposed one. -/
theorem C71_violated : ∃ (n : ℕ) (I : Tei ℚ) (Ca Cb : Mat ℚ) (P Q R S : ℕ), EriSym I ∧
    P < 2 * n ∧ Q < 2 * n ∧ R < 2 * n ∧ S < 2 * n ∧
    spinorbTwo n (fun p q r s => general n I Ca Ca Ca Ca p s q r) (fun p q r s => general n I Cb Cb Cb Cb p s q r)
        (fun p q r s => general n I Ca Ca Cb Cb p s q r) P Q R S ≠
      spinorbTwo n (fun p q r s => general n I Ca Ca Ca Ca p s q r) (fun p q r s => general n I Cb Cb Cb Cb p s q r)
        (fun p q r s => general n I Ca Ca Cb Cb p s q r) Q P S R :=
  ⟨2, fun x y z w => (x + 1) * (y + 1) * (z + 1) * (w + 1), fun x p => if x = p then 1 else 0,
    fun x p => if x + p = 1 then 1 else 0, 0, 3, 3, 0,
    ⟨fun _ _ _ _ => by ring, fun _ _ _ _ => by ring, fun _ _ _ _ => by ring⟩, by decide, by decide,
    by decide, by decide, by decide +kernel⟩

/-- **C71** holds when each of the three arrays has the symmetry itself, as for restricted orbitals. Partial: for
unrestricted orbitals the mixed integrals do not have it. -/
theorem C71_exchange_partial (n : ℕ) (ta tb tm : Tei K) (ha : ∀ p q r s, ta p q r s = ta q p s r)
    (hb : ∀ p q r s, tb p q r s = tb q p s r) (hm : ∀ p q r s, tm p q r s = tm q p s r)
    (P Q R S : ℕ) (hP : P < 2 * n) (hQ : Q < 2 * n) (hR : R < 2 * n) (hS : S < 2 * n) :
    spinorbTwo n ta tb tm P Q R S = spinorbTwo n ta tb tm Q P S R := by
  obtain ⟨p, hp, a, rfl⟩ := half_spin hP
  obtain ⟨q, hq, b, rfl⟩ := half_spin hQ
  obtain ⟨r, hr, c, rfl⟩ := half_spin hR
  obtain ⟨s, hs, d, rfl⟩ := half_spin hS
  rw [C27_spinorb_two n _ _ _ _ _ _ _ hp hq hr hs, C27_spinorb_two n _ _ _ _ _ _ _ hq hp hs hr]
  cases a <;> cases b <;> cases c <;> cases d <;> simp
  · exact ha p q r s
  · exact hm p q r s
  · exact hm p q r s
  · exact hb p q r s

/-! ## C28 -/

/-- **C28**, RHF with an even number of electrons: the recorded numbers are the lengths of the two slices of the `2n`
spin orbitals. -/
theorem C28_rhf (n nele : ℕ) (he : 2 ∣ nele) (hn : nele / 2 ≤ n) :
    (countsRhf n nele).nocc = (countsRhf n nele).split ∧ (countsRhf n nele).nvirt = 2 * n - (countsRhf n nele).split := by
  obtain ⟨k, rfl⟩ := he
  simp only [countsRhf]
  omega

/-- **C28**, UHF, exactly when it holds (`2n - drop` spin orbitals are kept): the recorded number of virtual spin
orbitals is right iff there are as many alpha as beta electrons. Partial. -/
theorem C28_uhf_partial (n na nb drop : ℕ) (ha : na ≤ n) (hb : nb ≤ n) (hd : drop ≤ na + nb) :
    (countsUhf n na nb drop).nocc = (countsUhf n na nb drop).split ∧
    ((countsUhf n na nb drop).nvirt = (2 * n - drop) - (countsUhf n na nb drop).split ↔ na = nb) := by
  refine ⟨rfl, ?_⟩
  simp only [countsUhf]
  constructor <;> intro h <;> omega

/-- **C28** is violated for open shells: three alpha and one beta electron in six orbitals. -/
theorem C28_violated : ∃ n na nb : ℕ, na ≤ n ∧ nb ≤ n ∧
    (countsUhf n na nb 0).nvirt ≠ 2 * n - (countsUhf n na nb 0).split :=
  ⟨6, 3, 1, by decide, by decide, by decide⟩

/-- Six orbitals, ten electrons. -/
example : (countsRhf 6 10).nocc = 10 ∧ (countsRhf 6 10).nvirt = 2 := by decide

/-! ## C59 -/

/-- The spin orbital `x` is occupied in the SCF result: orbital number below the number of electrons of its spin. -/
def IsOcc (na nb : ℕ) (x : ℕ × Bool) : Prop := x.1 < if x.2 then nb else na

instance (na nb : ℕ) (x : ℕ × Bool) : Decidable (IsOcc na nb x) := by unfold IsOcc; infer_instance

/-- Energy of a spin orbital. -/
def energyOf (ea eb : ℕ → K) (x : ℕ × Bool) : K := (if x.2 then eb else ea) x.1

theorem eq_range_of_downward (U : Finset ℕ) (h : ∀ x ∈ U, ∀ y < x, y ∈ U) : U = range U.card := by
  refine eq_of_subset_of_card_le (fun x hx => ?_) (by simp)
  have : range (x + 1) ⊆ U := fun y hy => by
    rcases Nat.lt_succ_iff_lt_or_eq.1 (mem_range.1 hy) with h1 | rfl
    · exact h x hx y h1
    · exact hx
  have := card_le_card this
  rw [card_range] at this
  exact mem_range.2 this

omit [Field K] in
/-- **C59** When every occupied spin orbital lies below every virtual one, whatever the spins, the first `na + nb`
places of the sorted list are exactly the occupied spin orbitals of the SCF result. -/
theorem C59_occupied_places [LinearOrder K] (n na nb : ℕ) (ha : na ≤ n) (hb : nb ≤ n) (ea eb : ℕ → K)
    (π : Equiv.Perm ℕ) (hπ : IsArgsort (2 * n) (appendEps n ea eb) π)
    (gap : ∀ x y : ℕ × Bool, x.1 < n → y.1 < n → IsOcc na nb x → ¬ IsOcc na nb y → energyOf ea eb x < energyOf ea eb y)
    (P : ℕ) (hP : P < 2 * n) : P < na + nb ↔ IsOcc na nb (place n 0 π P) := by
  classical
  have hin : ∀ x, x < 2 * n → π x < 2 * n := by
    intro x hx
    by_contra h
    have h1 := hπ.fix (π x) (by omega)
    have := π.injective h1
    omega
  have hE : ∀ x, appendEps n ea eb (π x) = energyOf ea eb (place n 0 π x) := by
    intro x; unfold appendEps energyOf place lab; simp only [add_zero]; split_ifs <;> simp_all
  have hlt : ∀ x < 2 * n, (place n 0 π x).1 < n := by
    intro x hx
    have := hin x hx
    unfold place lab; simp only [add_zero]; split_ifs <;> simp <;> omega
  set U := (range (2 * n)).filter fun x => IsOcc na nb (place n 0 π x) with hU
  have hdown : U = range U.card := by
    apply eq_range_of_downward
    intro x hx y hy
    rw [hU, mem_filter, mem_range] at hx ⊢
    refine ⟨by omega, ?_⟩
    by_contra h
    have h1 := gap _ _ (hlt x hx.1) (hlt y (by omega)) hx.2 h
    have h2 := hπ.mono y x hy.le hx.1
    rw [hE, hE] at h2
    exact absurd h1 (not_lt.2 h2)
  have hcard : U.card = na + nb := by
    have e : U.card = (range na ∪ Ico n (n + nb)).card := by
      refine card_bij (fun x _ => π x) (fun x hx => ?_) (fun x _ y _ h => π.injective h) (fun y hy => ?_)
      · rw [hU, mem_filter, mem_range] at hx
        have h2 := hx.2
        have h3 := hin x hx.1
        simp only [IsOcc, place, lab, add_zero] at h2
        simp only [mem_union, mem_range, mem_Ico]
        by_cases h4 : π x < n
        · rw [if_pos h4] at h2; simp at h2; omega
        · rw [if_neg h4] at h2; simp at h2; omega
      · have hy' : y < 2 * n := by
          simp only [mem_union, mem_range, mem_Ico] at hy; omega
        refine ⟨π.symm y, ?_, by simp⟩
        have hx : π.symm y < 2 * n := by
          by_contra h
          have h1 := hπ.fix (π.symm y) (by omega)
          rw [Equiv.apply_symm_apply] at h1
          omega
        rw [hU, mem_filter, mem_range]
        refine ⟨hx, ?_⟩
        simp only [IsOcc, place, lab, add_zero, Equiv.apply_symm_apply]
        simp only [mem_union, mem_range, mem_Ico] at hy
        by_cases h4 : y < n
        · rw [if_pos h4]; simp; omega
        · rw [if_neg h4]; simp; omega
    rw [e, card_union_of_disjoint, card_range, Nat.card_Ico]
    · omega
    · rw [disjoint_left]
      intro x h1 h2
      rw [mem_range] at h1; rw [mem_Ico] at h2; omega
  have : P ∈ U ↔ P ∈ range (na + nb) := by rw [hdown, hcard]
  rw [hU, mem_filter, mem_range, mem_range] at this
  tauto

/-- **C59** is violated in general: in a triplet with two alpha electrons, whose beta orbital lies between the two
occupied alpha orbitals, the spin-orbital codes occupy the beta orbital. Each spin separately is filled from below. -/
theorem C59_violated : ∃ (n na nb : ℕ) (ea eb : ℕ → ℚ) (π : Equiv.Perm ℕ), na ≤ n ∧ nb ≤ n ∧
    IsArgsort (2 * n) (appendEps n ea eb) π ∧
    (∀ i a, i < na → na ≤ a → a < n → ea i < ea a) ∧ (∀ i a, i < nb → nb ≤ a → a < n → eb i < eb a) ∧
    ∃ P < na + nb, ¬ IsOcc na nb (place n 0 π P) := by
  refine ⟨2, 2, 0, fun p => if p = 0 then -2 else 0, fun p => if p = 0 then -1 else 3, Equiv.swap 1 2,
    by decide, by decide, ⟨fun x hx => Equiv.swap_apply_of_ne_of_ne (by omega) (by omega), fun x y hxy hy => ?_⟩,
    fun i a _ _ _ => by omega, fun i a _ _ _ => by omega, 1, by decide, by decide⟩
  interval_cases y <;> interval_cases x <;> decide

/-- The hypotheses of `C59_occupied_places` can be met: two orbitals, one electron of each spin, alpha energies -2
and 1, beta energies -3/2 and 2. -/
example : ∃ π : Equiv.Perm ℕ, IsArgsort (2 * 2) (appendEps 2 (fun p => if p = 0 then -2 else (1 : ℚ))
    (fun p => if p = 0 then -3/2 else 2)) π :=
  ⟨Equiv.swap 1 2, ⟨fun x hx => Equiv.swap_apply_of_ne_of_ne (by omega) (by omega), fun x y hxy hy => by
    interval_cases y <;> interval_cases x <;> decide +kernel⟩⟩

/-! ## C70 -/

/-- Occupied and virtual orbital numbers: the slices `slice(None,m)` and `slice(m,None)` of `n` orbitals. -/
def spaces (m n : ℕ) (s : ℕ) : Finset ℕ := if s = 0 then range m else Ico m n

variable {I J : Type} [Inhabited I] [Inhabited J]

/-- One pass of the spin-orbital code with orbitals read through an embedding. -/
theorem residMainSlow_embed [DecidableEq I] [DecidableEq J] (e : I → J) (he : Function.Injective e) (D : ℕ → Finset I)
    (D' : ℕ → Finset J) (hD : ∀ s, D' s = (D s).map ⟨e, he⟩) (d2 : J → J → J → J → K) (A : SO J K) :
    residMainSlow D "CCD" (fun _ _ _ _ _ => 0) (fun a b i j => d2 (e a) (e b) (e i) (e j)) (A.comap e) =
      (residMainSlow D' "CCD" (fun _ _ _ _ _ => 0) d2 A).comap e := by
  have h : ∀ a b i j, ccd_t2residual D (A.comap e) a b i j = ccd_t2residual D' A (e a) (e b) (e i) (e j) := fun a b i j =>
    (Prog.eval_embed e he D D' hD (A.comap e).T A.T (fun t l => (SO.comap_T e A t l).symm) 4 Gen.ccd_t2residual
      (by decide +kernel) [a, b, i, j] rfl).symm
  simp only [residMainSlow, residSlow, h]
  simp [SO.comap]

theorem iterates_embed [DecidableEq I] [DecidableEq J] (e : I → J) (he : Function.Injective e) (D : ℕ → Finset I)
    (D' : ℕ → Finset J) (hD : ∀ s, D' s = (D s).map ⟨e, he⟩) (d2 : J → J → J → J → K) (A : SO J K) (k : ℕ) :
    (residMainSlow D "CCD" (fun _ _ _ _ _ => 0) (fun a b i j => d2 (e a) (e b) (e i) (e j)))^[k] (A.comap e) =
      ((residMainSlow D' "CCD" (fun _ _ _ _ _ => 0) d2)^[k] A).comap e := by
  induction k with
  | zero => rfl
  | succ k ih => rw [Function.iterate_succ_apply', ih, residMainSlow_embed e he D D' hD, Function.iterate_succ_apply']

theorem iterates_congr [DecidableEq I] (D : ℕ → Finset I) (d2 : I → I → I → I → K) (B C : SO I K) (hf : B.f = C.f)
    (hg : B.g = C.g) (ht : B.t2 = C.t2) (k : ℕ) :
    ((residMainSlow D "CCD" (fun _ _ _ _ _ => 0) d2)^[k] B).f = ((residMainSlow D "CCD" (fun _ _ _ _ _ => 0) d2)^[k] C).f ∧
    ((residMainSlow D "CCD" (fun _ _ _ _ _ => 0) d2)^[k] B).g = ((residMainSlow D "CCD" (fun _ _ _ _ _ => 0) d2)^[k] C).g ∧
    ((residMainSlow D "CCD" (fun _ _ _ _ _ => 0) d2)^[k] B).t2 =
      ((residMainSlow D "CCD" (fun _ _ _ _ _ => 0) d2)^[k] C).t2 := by
  induction k with
  | zero => exact ⟨hf, hg, ht⟩
  | succ k ih =>
    rw [Function.iterate_succ_apply', Function.iterate_succ_apply']
    generalize (residMainSlow D "CCD" (fun _ _ _ _ _ => 0) d2)^[k] B = B at *
    generalize (residMainSlow D "CCD" (fun _ _ _ _ _ => 0) d2)^[k] C = C at *
    obtain ⟨i1, i2, i3⟩ := ih
    refine ⟨i1, i2, ?_⟩
    have e := (ccd_congr D B C i1 i2 i3).1
    funext p q r s
    simp [residMainSlow, residSlow, e, i3]

/-- **C70** The spin-orbital and the spin-integrated CCD calculation, each started from the same SCF result by its own
set-up code, give the same energy in every iteration. Hypotheses: the AO integrals have their permutational symmetry,
the Fock matrices are symmetric and diagonal in the orbital basis, as many alpha as beta electrons (`m`), and the
occupied spin orbitals lie below the virtual ones. -/
theorem C70_same_calculation [LinearOrder K] [CharZero K] (n m : ℕ) (hm : m ≤ n) (I : Tei K) (hI : EriSym I)
    (Fa Fb Ca Cb : Mat K) (hFa : ∀ x y, Fa x y = Fa y x) (hFb : ∀ x y, Fb x y = Fb y x) (ea eb : ℕ → K)
    (hfa : ∀ p q, oneBody n Fa Ca p q = if p = q then ea p else 0)
    (hfb : ∀ p q, oneBody n Fb Cb p q = if p = q then eb p else 0)
    (π : Equiv.Perm ℕ) (hπ : IsArgsort (2 * n) (appendEps n ea eb) π)
    (gap : ∀ x y : ℕ × Bool, x.1 < n → y.1 < n → IsOcc m m x → ¬ IsOcc m m y → energyOf ea eb x < energyOf ea eb y)
    (k : ℕ) :
    ccdEnergy (spaces (2 * m) (2 * n))
        ((residMainSlow (spaces (2 * m) (2 * n)) "CCD" (fun _ _ _ _ _ => 0)
          (den fun P => appendEps n ea eb (π P)))^[k] (tmpslow n 0 I Ca Cb ea eb π)) =
      ccd_energy_with_spin (spaces m n)
        ((iterSi (spaces m n) "CCD" (den_aa (energyOf ea eb)) (den_bb (energyOf ea eb)) (den_ab (energyOf ea eb)))^[k]
          (generalUHF n I Fa Fb Ca Cb)) := by
  set A := generalUHF n I Fa Fb Ca Cb with hA
  have hsym : A.Sym := C26_spin_integrated n I hI Fa Fb Ca Cb hFa hFb
  have he : Function.Injective (place n 0 π) := fun x y h => by
    have := π.injective (lab_injective n h); omega
  have hD : ∀ s, spinD (spaces m n) s = (spaces (2 * m) (2 * n) s).map ⟨place n 0 π, he⟩ := by
    intro s
    have h59 := C59_occupied_places n m m hm hm ea eb π hπ gap
    have hback : ∀ X < 2 * n, π.symm X < 2 * n := by
      intro X hX
      by_contra h
      have h1 := hπ.fix (π.symm X) (by omega)
      rw [Equiv.apply_symm_apply] at h1
      omega
    have hpos : ∀ p < n, ∀ σ : Bool, ∃ P < 2 * n, place n 0 π P = (p, σ) := by
      intro p hp σ
      refine ⟨π.symm (p + σ.toNat * n), hback _ ?_, ?_⟩
      · cases σ <;> simp <;> omega
      · cases σ <;> simp [place, lab, hp]
    have hfst : ∀ P < 2 * n, (place n 0 π P).1 < n := by
      intro P hP
      have h1 : π P < 2 * n := by
        by_contra h
        have := π.injective (hπ.fix (π P) (by omega))
        omega
      unfold place lab; simp only [add_zero]; split_ifs <;> simp <;> omega
    ext ⟨p, σ⟩
    simp only [spinD, mem_product, mem_univ, and_true, mem_map, Function.Embedding.coeFn_mk]
    by_cases hs : s = 0
    · simp only [spaces, if_pos hs, mem_range]
      constructor
      · intro hp
        obtain ⟨P, hP, e⟩ := hpos p (by omega) σ
        refine ⟨P, ?_, e⟩
        rw [two_mul, h59 P hP, e]
        simpa [IsOcc] using hp
      · rintro ⟨P, hP, e⟩
        have := (h59 P (by omega)).1 (by omega)
        rw [e] at this
        simpa [IsOcc] using this
    · simp only [spaces, if_neg hs, mem_Ico]
      constructor
      · rintro ⟨hp, hn⟩
        obtain ⟨P, hP, e⟩ := hpos p hn σ
        refine ⟨P, ⟨?_, hP⟩, e⟩
        by_contra h
        have := (h59 P hP).1 (by omega)
        rw [e] at this
        simp [IsOcc] at this
        omega
      · rintro ⟨P, ⟨h1, h2⟩, e⟩
        have h3 := hfst P h2
        rw [e] at h3
        refine ⟨?_, h3⟩
        by_contra h
        have := (h59 P h2).2 (by rw [e]; simp [IsOcc]; omega)
        omega
  have hd : (den fun P => appendEps n ea eb (π P)) =
      fun a b i j => den (energyOf ea eb) (place n 0 π a) (place n 0 π b) (place n 0 π i) (place n 0 π j) := by
    have hE : ∀ x, appendEps n ea eb (π x) = energyOf ea eb (place n 0 π x) := by
      intro x; unfold appendEps energyOf place lab; simp only [add_zero]; split_ifs <;> simp_all
    funext a b i j
    simp only [den, hE]
  have ht2 : A.so.t2 = fun _ _ _ _ => 0 := by
    funext ⟨p, a⟩ ⟨q, b⟩ ⟨r, c⟩ ⟨s, d⟩
    by_cases hb : a.toNat + b.toNat = c.toNat + d.toNat
    · obtain ⟨a1, a2⟩ := A.so_t2_same p q r s
      obtain ⟨m1, m2, m3, m4⟩ := A.so_t2_mixed p q r s
      cases a <;> cases b <;> cases c <;> cases d <;> simp at hb <;>
        simp only [a1, a2, m1, m2, m3, m4] <;> simp [hA, generalUHF]
    · rw [SI.so_t2_zero _ _ _ _ _ _ _ _ _ hb]
  obtain ⟨c1, c2, c3⟩ := iterates_congr (spaces (2 * m) (2 * n))
    (fun a b i j => den (energyOf ea eb) (place n 0 π a) (place n 0 π b) (place n 0 π i) (place n 0 π j))
    (tmpslow n 0 I Ca Cb ea eb π) (A.so.comap (place n 0 π))
    (by funext P Q; exact C27_same_fock n 0 I Fa Fb Ca Cb ea eb π hfa hfb P Q)
    (by funext P Q R S; exact C27_same_integrals n 0 I hI Fa Fb Ca Cb ea eb π P Q R S)
    (by funext P Q R S; simp [SO.comap, ht2, tmpslow]) k
  rw [(C36_iterates (spaces m n) (energyOf ea eb) A hsym k).2, hd,
    (ccd_congr (spaces (2 * m) (2 * n)) _ _ c1 c2 c3).2,
    iterates_embed (place n 0 π) he _ _ hD (den (energyOf ea eb)) A.so k]
  exact (Prog.eval_embed (place n 0 π) he _ _ hD _ _ (fun t l => (SO.comap_T _ _ t l).symm) 0 Gen.ccdEnergy
    (by decide +kernel) [] rfl).symm

/-- Two orbitals with energies -2 and 1, two electrons. The hypotheses of `C70_same_calculation` are met and the
integral that drives the first iteration is not zero. (Outside their shape the arrays are continued by zero; every array can be.) -/
example : ∃ (I : Tei ℚ) (F C : Mat ℚ) (e : ℕ → ℚ) (π : Equiv.Perm ℕ), EriSym I ∧ (∀ x y, F x y = F y x) ∧
    (∀ p q, oneBody 2 F C p q = if p = q then e p else 0) ∧ IsArgsort (2 * 2) (appendEps 2 e e) π ∧
    (∀ x y : ℕ × Bool, x.1 < 2 → y.1 < 2 → IsOcc 1 1 x → ¬ IsOcc 1 1 y → energyOf e e x < energyOf e e y) ∧
    (tmpslow 2 0 I C C e e π).g 2 3 0 1 ≠ 0 := by
  refine ⟨fun x y z w => (x + 1) * (y + 1) * (z + 1) * (w + 1), fun x y => if x = y then (if x = 0 then -2 else 1) else 0,
    fun x p => if x = p then 1 else 0, fun p => if p = 0 then -2 else if p = 1 then 1 else 0, Equiv.swap 1 2,
    ⟨fun _ _ _ _ => by ring, fun _ _ _ _ => by ring, fun _ _ _ _ => by ring⟩, fun x y => ?_, fun p q => ?_,
    ⟨fun x hx => Equiv.swap_apply_of_ne_of_ne (by omega) (by omega), fun x y hxy hy => ?_⟩, ?_, ?_⟩
  · by_cases h : x = y
    · rw [h]
    · simp only [if_neg h, if_neg (Ne.symm h)]
  · rcases p with _ | _ | p <;> rcases q with _ | _ | q <;> simp [oneBody]
  · interval_cases y <;> interval_cases x <;> decide
  · rintro ⟨x, a⟩ ⟨y, b⟩ hx hy h1 h2
    have e1 : x = 0 := by cases a <;> simp [IsOcc] at h1 <;> omega
    have e2 : y = 1 := by cases b <;> simp [IsOcc] at h2 <;> simp at hy <;> omega
    subst e1; subst e2
    cases a <;> cases b <;> simp [energyOf] <;> norm_num
  · rw [tmpslow_g 2 0 _ ⟨fun _ _ _ _ => by ring, fun _ _ _ _ => by ring, fun _ _ _ _ => by ring⟩ _ _ _ _ _ 2 3 0 1 1 1 0 0
      false true false true (by decide) (by decide) (by decide) (by decide)]
    decide +kernel

end Verif.Props
