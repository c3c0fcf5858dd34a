import Verif.Props.Whole
import Verif.Props.WholeFull
import Verif.Props.SlowDiis

/-!
# What DIIS does to the amplitudes of spin-integrated calculations (C96)
-/

namespace Verif.Props

open Verif.Ein Verif.UT2 Verif.Kernel Verif.Py Verif.Diis

/-- The DIIS object after a pass that stored `x`, and the vector it gave back. -/
theorem diis_pass {ι : Type} [Fintype ι] (d : State ι × (ι → ℝ)) (x v : ι → ℝ) (hv : d.1.newVec x (d.2 - x) = some v) :
    (d.1.iterIdx < d.1.startIter → v = x) ∧
    (¬ d.1.iterIdx < d.1.startIter →
      (∃ w : Fin (d.1.push x (d.2 - x)).prev.length → ℝ, ∑ n, w n = 1 ∧ v = fun p => ∑ n, w n * (d.1.push x (d.2 - x)).prev[n] p) ∧
      (1 ≤ d.1.nvecs → x ∈ (d.1.push x (d.2 - x)).prev)) ∧
    (∀ y ∈ (d.1.push x (d.2 - x)).prev, y ∈ d.1.prev ∨ y = x) := by
  refine ⟨fun hw => ?_, fun hw => ⟨?_, fun hn => push_last _ _ _ hw hn⟩, fun y hy => ?_⟩
  · rw [State.newVec, if_pos hw, Option.some.injEq] at hv
    exact hv.symm
  · obtain ⟨w, hw1, hw2⟩ := C12_affine_combination _ _ _ _ hw hv
    refine ⟨w, hw1, ?_⟩
    funext p
    rw [hw2, Finset.sum_apply]
    rfl
  · unfold State.push at hy
    split at hy
    · exact .inl hy
    · dsimp only at hy
      have : y ∈ d.1.prev ++ [x] := by
        split at hy
        · exact List.mem_of_mem_tail hy
        · exact hy
      rcases List.mem_append.1 this with h | h
      · exact .inl h
      · exact .inr (List.mem_singleton.1 h)

variable {I : Type} [DecidableEq I] [Inhabited I] (D : Nat → Finset I)

/-- The vector lists the three blocks of the doubles. -/
def ListsSi (x : Whole.Slot D → ℝ) (A : SI I ℝ) : Prop :=
  ∀ a b i j (ha : a ∈ D 1) (hb : b ∈ D 1) (hi : i ∈ D 0) (hj : j ∈ D 0),
    x (0, ⟨a, ha⟩, ⟨b, hb⟩, ⟨i, hi⟩, ⟨j, hj⟩) = A.t2_aaaa a b i j ∧
    x (1, ⟨a, ha⟩, ⟨b, hb⟩, ⟨i, hi⟩, ⟨j, hj⟩) = A.t2_bbbb a b i j ∧
    x (2, ⟨a, ha⟩, ⟨b, hb⟩, ⟨i, hi⟩, ⟨j, hj⟩) = A.t2_abab a b i j

/-- **C96** One pass with DIIS, where `U` are the arrays after `residMain`. While DIIS waits, the amplitudes are those of the update.
Afterwards the three blocks are one combination, with weights that sum to one, of the stored vectors; the update is one of them.
The vector kept for the next error lists the amplitudes. -/
theorem C96_ccd (o : Whole.Opts I) (hk : o.diis ≠ none) (s s' : St (SI I ℝ) (Whole.Acc D)) (U : SI I ℝ)
    (hU : (Whole.cfg D o).resid s.amps ((Whole.cfg D o).dag s.amps) = .ok U) (h : (Whole.cfg D o).step s = .ok s') :
    (s.diis.1.iterIdx < s.diis.1.startIter → s'.amps = U) ∧
    (¬ s.diis.1.iterIdx < s.diis.1.startIter →
      (∃ w : Fin s'.diis.1.prev.length → ℝ, ∑ n, w n = 1 ∧ ListsSi D (fun p => ∑ n, w n * s'.diis.1.prev[n] p) s'.amps) ∧
      (1 ≤ s.diis.1.nvecs → ∃ x ∈ s'.diis.1.prev, ListsSi D x U)) ∧
    (∀ x ∈ s'.diis.1.prev, x ∈ s.diis.1.prev ∨ ListsSi D x U) ∧
    ListsSi D s'.diis.2 s'.amps ∧
    (∃ x, ListsSi D x U ∧ s'.diis.1 = s.diis.1.push x (s.diis.2 - x)) := by
  obtain ⟨a, ha, hb, -⟩ := (step_ok_iff _ _ _).1 h
  have haU : a = U := Except.ok.inj (ha.symm.trans hU)
  subst haU
  have hsome : o.diis.isSome = true := Option.isSome_iff_ne_none.2 hk
  simp only [Whole.cfg, Whole.accel, hsome, if_true] at hb
  split at hb
  · cases hb
  split at hb
  · cases hb
  split at hb
  · cases hb
  · next v hv =>
    simp only [Except.ok.injEq, Prod.mk.injEq] at hb
    obtain ⟨hd, hu⟩ := hb
    obtain ⟨B, l, d⟩ := s'
    dsimp only at hd hu
    subst hd
    have lists : ListsSi D (Whole.pack D a) a := fun _ _ _ _ _ _ _ _ => ⟨rfl, rfl, rfl⟩
    have read : ListsSi D v B := fun p q i j hp hq hi hj => by
      rw [← hu]
      simp only [Whole.unpack, Whole.fill]
      simp only [hp, hq, hi, hj, and_self, dite_true]
    obtain ⟨h1, h2, h3⟩ := diis_pass s.diis (Whole.pack D a) v hv
    refine ⟨fun hw => ?_, fun hw => ⟨?_, fun hn => ⟨_, (h2 hw).2 hn, lists⟩⟩, fun x hx => ?_, read, _, lists, rfl⟩
    · obtain rfl := h1 hw
      have e : ∀ k, Whole.fill D (Whole.pack D a) k (Whole.block a k) = Whole.block a k := by
        intro k
        funext p q i j
        unfold Whole.fill
        split <;> rfl
      dsimp only
      rw [← hu]
      show { a with t2_aaaa := Whole.fill D (Whole.pack D a) 0 (Whole.block a 0), t2_bbbb := Whole.fill D (Whole.pack D a) 1 (Whole.block a 1),
                    t2_abab := Whole.fill D (Whole.pack D a) 2 (Whole.block a 2) } = a
      rw [e, e, e]
      rfl
    · obtain ⟨w, hw1, hw2⟩ := (h2 hw).1
      exact ⟨w, hw1, hw2 ▸ read⟩
    · rcases h3 x hx with h | h
      · exact .inl h
      · exact .inr (h ▸ lists)

/-- **C96** The passes `q 0, …, q n` of a calculation with DIIS: every vector stored at the end lists the update computed from the
amplitudes of one of these passes. Nothing else enters, in particular neither the starting amplitudes nor an extrapolated vector. -/
theorem C96_history (o : Whole.Opts I) (hk : o.diis ≠ none) (A : SI I ℝ) (n : ℕ) (q : ℕ → St (SI I ℝ) (Whole.Acc D))
    (h0 : q 0 = Whole.initial D o A) (hq : ∀ m < n, (Whole.cfg D o).step (q m) = .ok (q (m + 1))) :
    ∀ x ∈ (q n).diis.1.prev, ∃ m < n, ∃ U, (Whole.cfg D o).resid (q m).amps ((Whole.cfg D o).dag (q m).amps) = .ok U ∧ ListsSi D x U := by
  induction n with
  | zero =>
    intro x hx
    rw [h0] at hx
    exact absurd hx (List.not_mem_nil)
  | succ n ih =>
    intro x hx
    obtain ⟨U, hU, -, -⟩ := (step_ok_iff _ _ _).1 (hq n (Nat.lt_succ_self n))
    rcases (C96_ccd D o hk (q n) (q (n + 1)) U hU (hq n (Nat.lt_succ_self n))).2.2.1 x hx with h | h
    · obtain ⟨m, hm, r⟩ := ih (fun m hm => hq m (Nat.lt_succ_of_lt hm)) x h
      exact ⟨m, Nat.lt_succ_of_lt hm, r⟩
    · exact ⟨n, Nat.lt_succ_self n, U, hU, h⟩

/-- The vector lists the three blocks of the doubles and the five blocks of the quadruples. -/
def ListsFull (x : WholeFull.Slot D → ℝ) (A : SI I ℝ) : Prop :=
  (∀ a b i j (ha : a ∈ D 1) (hb : b ∈ D 1) (hi : i ∈ D 0) (hj : j ∈ D 0),
    x (.inl (0, (⟨a, ha⟩, ⟨b, hb⟩), ⟨i, hi⟩, ⟨j, hj⟩)) = A.t2_aaaa a b i j ∧
    x (.inl (1, (⟨a, ha⟩, ⟨b, hb⟩), ⟨i, hi⟩, ⟨j, hj⟩)) = A.t2_bbbb a b i j ∧
    x (.inl (2, (⟨a, ha⟩, ⟨b, hb⟩), ⟨i, hi⟩, ⟨j, hj⟩)) = A.t2_abab a b i j) ∧
  (∀ a b c d i j k l (ha : a ∈ D 1) (hb : b ∈ D 1) (hc : c ∈ D 1) (hd : d ∈ D 1) (hi : i ∈ D 0) (hj : j ∈ D 0) (hk : k ∈ D 0) (hl : l ∈ D 0),
    x (.inr (0, (⟨a, ha⟩, ⟨b, hb⟩, ⟨c, hc⟩, ⟨d, hd⟩), ⟨i, hi⟩, ⟨j, hj⟩, ⟨k, hk⟩, ⟨l, hl⟩)) = A.t4_aaaaaaaa a b c d i j k l ∧
    x (.inr (1, (⟨a, ha⟩, ⟨b, hb⟩, ⟨c, hc⟩, ⟨d, hd⟩), ⟨i, hi⟩, ⟨j, hj⟩, ⟨k, hk⟩, ⟨l, hl⟩)) = A.t4_aaabaaab a b c d i j k l ∧
    x (.inr (2, (⟨a, ha⟩, ⟨b, hb⟩, ⟨c, hc⟩, ⟨d, hd⟩), ⟨i, hi⟩, ⟨j, hj⟩, ⟨k, hk⟩, ⟨l, hl⟩)) = A.t4_aabbaabb a b c d i j k l ∧
    x (.inr (3, (⟨a, ha⟩, ⟨b, hb⟩, ⟨c, hc⟩, ⟨d, hd⟩), ⟨i, hi⟩, ⟨j, hj⟩, ⟨k, hk⟩, ⟨l, hl⟩)) = A.t4_abbbabbb a b c d i j k l ∧
    x (.inr (4, (⟨a, ha⟩, ⟨b, hb⟩, ⟨c, hc⟩, ⟨d, hd⟩), ⟨i, hi⟩, ⟨j, hj⟩, ⟨k, hk⟩, ⟨l, hl⟩)) = A.t4_bbbbbbbb a b c d i j k l)

/-- **C96** One pass of a CCDQ calculation with DIIS, where `U` are the arrays after the update: as `C96_ccd`, with doubles and
quadruples in one vector. -/
theorem C96_ccdq (o : WholeFull.Opts I) (hk : o.diis ≠ none) (s s' : St (SI I ℝ) (WholeFull.Acc D)) (U : SI I ℝ)
    (hU : WholeFull.resid D o.cc_type o.εa o.εb s.amps = .ok U) (h : (WholeFull.cfg D o).step s = .ok s') :
    (s.diis.1.iterIdx < s.diis.1.startIter → s'.amps = U) ∧
    (¬ s.diis.1.iterIdx < s.diis.1.startIter →
      (∃ w : Fin s'.diis.1.prev.length → ℝ, ∑ n, w n = 1 ∧ ListsFull D (fun p => ∑ n, w n * s'.diis.1.prev[n] p) s'.amps) ∧
      (1 ≤ s.diis.1.nvecs → ∃ x ∈ s'.diis.1.prev, ListsFull D x U)) ∧
    (∀ x ∈ s'.diis.1.prev, x ∈ s.diis.1.prev ∨ ListsFull D x U) ∧
    ListsFull D s'.diis.2 s'.amps ∧
    (∃ x, ListsFull D x U ∧ s'.diis.1 = s.diis.1.push x (s.diis.2 - x)) := by
  obtain ⟨a, ha, hb, -⟩ := (step_ok_iff _ _ _).1 h
  have haU : a = U := Except.ok.inj (ha.symm.trans hU)
  subst haU
  have hsome : o.diis.isSome = true := Option.isSome_iff_ne_none.2 hk
  simp only [WholeFull.cfg, WholeFull.accel, hsome, if_true] at hb
  split at hb
  · cases hb
  · next v hv =>
    simp only [Except.ok.injEq, Prod.mk.injEq] at hb
    obtain ⟨hd, hu⟩ := hb
    obtain ⟨B, l, d⟩ := s'
    dsimp only at hd hu
    subst hd
    have lists : ListsFull D (WholeFull.pack D a) a :=
      ⟨fun _ _ _ _ _ _ _ _ => ⟨rfl, rfl, rfl⟩, fun _ _ _ _ _ _ _ _ _ _ _ _ _ _ _ _ => ⟨rfl, rfl, rfl, rfl, rfl⟩⟩
    have read : ListsFull D v B := by
      rw [← hu]
      refine ⟨fun p q i j hp hq hi hj => ?_, fun p q r t i j k l hp hq hr ht hi hj hk hl => ?_⟩
      · simp only [WholeFull.unpack, WholeFull.fill2]
        simp only [hp, hq, hi, hj, and_self, dite_true]
      · simp only [WholeFull.unpack, WholeFull.fill4]
        simp only [hp, hq, hr, ht, hi, hj, hk, hl, and_self, dite_true]
    obtain ⟨h1, h2, h3⟩ := diis_pass s.diis (WholeFull.pack D a) v hv
    refine ⟨fun hw => ?_, fun hw => ⟨?_, fun hn => ⟨_, (h2 hw).2 hn, lists⟩⟩, fun x hx => ?_, read, _, lists, rfl⟩
    · obtain rfl := h1 hw
      have e2 : ∀ k, WholeFull.fill2 D (WholeFull.pack D a) k (WholeFull.block2 a k) = WholeFull.block2 a k := by
        intro k
        funext p q i j
        unfold WholeFull.fill2
        split <;> rfl
      have e4 : ∀ k, WholeFull.fill4 D (WholeFull.pack D a) k (WholeFull.block4 a k) = WholeFull.block4 a k := by
        intro k
        funext p q r t i j m n
        unfold WholeFull.fill4
        split <;> rfl
      dsimp only
      rw [← hu]
      show { a with
          t2_aaaa := WholeFull.fill2 D (WholeFull.pack D a) 0 (WholeFull.block2 a 0)
          t2_bbbb := WholeFull.fill2 D (WholeFull.pack D a) 1 (WholeFull.block2 a 1)
          t2_abab := WholeFull.fill2 D (WholeFull.pack D a) 2 (WholeFull.block2 a 2)
          t4_aaaaaaaa := WholeFull.fill4 D (WholeFull.pack D a) 0 (WholeFull.block4 a 0)
          t4_aaabaaab := WholeFull.fill4 D (WholeFull.pack D a) 1 (WholeFull.block4 a 1)
          t4_aabbaabb := WholeFull.fill4 D (WholeFull.pack D a) 2 (WholeFull.block4 a 2)
          t4_abbbabbb := WholeFull.fill4 D (WholeFull.pack D a) 3 (WholeFull.block4 a 3)
          t4_bbbbbbbb := WholeFull.fill4 D (WholeFull.pack D a) 4 (WholeFull.block4 a 4) } = a
      rw [e2, e2, e2, e4, e4, e4, e4, e4]
      rfl
    · obtain ⟨w, hw1, hw2⟩ := (h2 hw).1
      exact ⟨w, hw1, hw2 ▸ read⟩
    · rcases h3 x hx with h | h
      · exact .inl h
      · exact .inr (h ▸ lists)

/-- A case: the first pass of a CCD calculation with DIIS from the start returns, and DIIS does not wait. -/
example (A : SI I ℝ) (x y z : I → I → I → I → ℝ) (o : Whole.Opts I) (ho : o = ⟨"CCD", x, y, z, 40, 1 / 100000000, some 6, 0⟩) :
    ∃ s', (Whole.cfg D o).step (Whole.initial D o A) = .ok s' ∧
      ¬ (Whole.initial D o A).diis.1.iterIdx < (Whole.initial D o A).diis.1.startIter := by
  subst ho
  obtain ⟨U, hU⟩ : ∃ U, (Whole.cfg D ⟨"CCD", x, y, z, 40, 1 / 100000000, some 6, 0⟩).resid A (set_l2amps A) = .ok U := ⟨_, rfl⟩
  have hv := C12_first_extrapolation 6 0 (by omega) [] rfl (Whole.pack D U) (Whole.pack D A - Whole.pack D U)
  refine ⟨⟨Whole.unpack D (Whole.pack D U) U, set_l2amps A, ((Diis.init 6 0).push (Whole.pack D U) (Whole.pack D A - Whole.pack D U), Whole.pack D U)⟩,
    (step_ok_iff _ _ _).2 ⟨U, hU, ?_, rfl⟩, lt_irrefl 0⟩
  simp only [Whole.cfg, Whole.accel, Option.isSome_some, if_true]
  rw [if_neg (by decide +kernel), if_neg (by decide +kernel)]
  simp only [Whole.initial, Option.getD_some]
  simp only [State.pushAll, List.foldl_nil] at hv
  rw [hv]

/-- A case: the first pass of a CCDQ calculation with DIIS from the start returns, and DIIS does not wait. -/
example (A : SI I ℝ) (x y : I → ℝ) (o : WholeFull.Opts I) (ho : o = ⟨"CCDQ", x, y, 40, 1 / 100000000, some 6, 0⟩) :
    ∃ s', (WholeFull.cfg D o).step (WholeFull.initial D o A) = .ok s' ∧
      ¬ (WholeFull.initial D o A).diis.1.iterIdx < (WholeFull.initial D o A).diis.1.startIter := by
  subst ho
  obtain ⟨U, hU⟩ : ∃ U, WholeFull.resid D "CCDQ" x y A = .ok U := ⟨_, if_pos rfl⟩
  have hv := C12_first_extrapolation 6 0 (by omega) [] rfl (WholeFull.pack D U) (WholeFull.pack D A - WholeFull.pack D U)
  refine ⟨⟨WholeFull.unpack D (WholeFull.pack D U) U, set_l2amps A, ((Diis.init 6 0).push (WholeFull.pack D U) (WholeFull.pack D A - WholeFull.pack D U), WholeFull.pack D U)⟩,
    (step_ok_iff _ _ _).2 ⟨U, hU, ?_, rfl⟩, lt_irrefl 0⟩
  simp only [WholeFull.cfg, WholeFull.accel, Option.isSome_some, if_true]
  simp only [WholeFull.initial, Option.getD_some]
  simp only [State.pushAll, List.foldl_nil] at hv
  rw [hv]

end Verif.Props
