import Verif.Props.WholeUcc4
import Verif.Props.SlowDiis

/-!
# What DIIS does to the amplitudes of a UCC(4) calculation (C89)
-/

namespace Verif.Props

open Verif.Ein Verif.UT2 Verif.Kernel Verif.Py Verif.Diis

variable {I : Type} [DecidableEq I] [Inhabited I] (D : Nat → Finset I)

/-- The vector lists singles, doubles and triples. -/
def ListsUcc (x : WholeUcc4.Slot D → ℝ) (S : SO I ℝ) : Prop :=
  (∀ a i (ha : a ∈ D 1) (hi : i ∈ D 0), x (.inl (⟨a, ha⟩, ⟨i, hi⟩)) = S.t1 a i) ∧
  (∀ a b i j (ha : a ∈ D 1) (hb : b ∈ D 1) (hi : i ∈ D 0) (hj : j ∈ D 0),
    x (.inr (.inl ((⟨a, ha⟩, ⟨b, hb⟩), ⟨i, hi⟩, ⟨j, hj⟩))) = S.t2 a b i j) ∧
  (∀ a b c i j k (ha : a ∈ D 1) (hb : b ∈ D 1) (hc : c ∈ D 1) (hi : i ∈ D 0) (hj : j ∈ D 0) (hk : k ∈ D 0),
    x (.inr (.inr ((⟨a, ha⟩, ⟨b, hb⟩, ⟨c, hc⟩), ⟨i, hi⟩, ⟨j, hj⟩, ⟨k, hk⟩))) = S.t3 a b c i j k)

/-- **C89** One pass with DIIS. The error vector stored is the previous vector minus the new amplitudes. While DIIS waits, the
amplitudes are those of the update. Afterwards singles, doubles and triples are the same combination, with weights that sum to one,
of the stored vectors; the amplitudes of the update are one of them. The previous vector of the next pass lists the amplitudes. -/
theorem C89_diis (o : WholeUcc4.Opts I) (hk : o.diis ≠ none) (s s' : St (SO I ℝ) (WholeUcc4.Acc D))
    (h : (WholeUcc4.cfg D o).step s = .ok s') :
    (s.diis.1.iterIdx < s.diis.1.startIter → s'.amps = WholeUcc4.pass D o.ε s.amps) ∧
    (¬ s.diis.1.iterIdx < s.diis.1.startIter →
      (∃ w : Fin s'.diis.1.prev.length → ℝ, ∑ n, w n = 1 ∧ ListsUcc D (fun p => ∑ n, w n * s'.diis.1.prev[n] p) s'.amps) ∧
      (1 ≤ s.diis.1.nvecs → ∃ x ∈ s'.diis.1.prev, ListsUcc D x (WholeUcc4.pass D o.ε s.amps))) ∧
    (∀ x ∈ s'.diis.1.prev, x ∈ s.diis.1.prev ∨ ListsUcc D x (WholeUcc4.pass D o.ε s.amps)) ∧
    ListsUcc D s'.diis.2 s'.amps ∧
    (∃ x, ListsUcc D x (WholeUcc4.pass D o.ε s.amps) ∧ s'.diis.1 = s.diis.1.push x (s.diis.2 - x)) := by
  obtain ⟨-, hb⟩ := ucc_step D o s s' h
  have hsome : o.diis.isSome = true := Option.isSome_iff_ne_none.2 hk
  generalize WholeUcc4.pass D o.ε s.amps = a at hb ⊢
  simp only [WholeUcc4.accel, hsome, if_true] at hb
  split at hb
  · cases hb
  · next v hv =>
    simp only [Except.ok.injEq, Prod.mk.injEq] at hb
    obtain ⟨hd, hu⟩ := hb
    have hd1 : s'.diis.1 = s.diis.1.push (WholeUcc4.pack D a) (s.diis.2 - WholeUcc4.pack D a) := by rw [← hd]
    have hd2 : s'.diis.2 = v := by rw [← hd]
    have lists : ListsUcc D (WholeUcc4.pack D a) a := ⟨fun _ _ _ _ => rfl, fun _ _ _ _ _ _ _ _ => rfl, fun _ _ _ _ _ _ _ _ _ _ _ _ => rfl⟩
    have read : ListsUcc D v s'.amps := by
      rw [← hu]
      exact ⟨fun p i hp hi => Eq.symm <| dif_pos (c := p ∈ D 1 ∧ i ∈ D 0) ⟨hp, hi⟩, fun p q i j hp hq hi hj => Eq.symm <| dif_pos (c := p ∈ D 1 ∧ q ∈ D 1 ∧ i ∈ D 0 ∧ j ∈ D 0) ⟨hp, hq, hi, hj⟩,
        fun p q r i j k hp hq hr hi hj hk => Eq.symm <| dif_pos (c := p ∈ D 1 ∧ q ∈ D 1 ∧ r ∈ D 1 ∧ i ∈ D 0 ∧ j ∈ D 0 ∧ k ∈ D 0) ⟨hp, hq, hr, hi, hj, hk⟩⟩
    refine ⟨fun hw => ?_, fun hw => ⟨?_, fun hn => ⟨_, hd1 ▸ push_last _ _ _ hw hn, lists⟩⟩, fun x hx => ?_, hd2 ▸ read, _, lists, hd1⟩
    · rw [State.newVec, if_pos hw, Option.some.injEq] at hv
      subst hv
      rw [← hu]
      have e1 : (WholeUcc4.unpack D (WholeUcc4.pack D a) a).t1 = a.t1 := by
        funext p i
        simp only [WholeUcc4.unpack]
        split
        · exact lists.1 p i _ _
        · rfl
      have e2 : (WholeUcc4.unpack D (WholeUcc4.pack D a) a).t2 = a.t2 := by
        funext p q i j
        simp only [WholeUcc4.unpack]
        split
        · exact lists.2.1 p q i j _ _ _ _
        · rfl
      have e3 : (WholeUcc4.unpack D (WholeUcc4.pack D a) a).t3 = a.t3 := by
        funext p q r i j k
        simp only [WholeUcc4.unpack]
        split
        · exact lists.2.2 p q r i j k _ _ _ _ _ _
        · rfl
      calc WholeUcc4.unpack D (WholeUcc4.pack D a) a
          = { a with
              t1 := (WholeUcc4.unpack D (WholeUcc4.pack D a) a).t1
              t2 := (WholeUcc4.unpack D (WholeUcc4.pack D a) a).t2
              t3 := (WholeUcc4.unpack D (WholeUcc4.pack D a) a).t3 } := rfl
        _ = a := by rw [e1, e2, e3]
    · obtain ⟨w, hw1, hw2⟩ := C12_affine_combination _ _ _ _ hw hv
      obtain ⟨B, l, d⟩ := s'
      subst hd
      have e : (fun p => ∑ n, w n * (s.diis.1.push (WholeUcc4.pack D a) (s.diis.2 - WholeUcc4.pack D a)).prev[n] p) = v := by
        funext p
        rw [hw2, Finset.sum_apply]
        rfl
      exact ⟨w, hw1, e ▸ read⟩
    · rw [hd1] at hx
      unfold State.push at hx
      split at hx
      · exact .inl hx
      · dsimp only at hx
        have : x ∈ s.diis.1.prev ++ [WholeUcc4.pack D a] := by
          split at hx
          · exact List.mem_of_mem_tail hx
          · exact hx
        rcases List.mem_append.1 this with h | h
        · exact .inl h
        · rw [List.mem_singleton.1 h]
          exact .inr lists

/-- A case: the first pass of a UCC(4) calculation with DIIS from the start returns, and DIIS does not wait. -/
example (S : SO I ℝ) (ε : I → ℝ) (o : WholeUcc4.Opts I) (ho : o = ⟨"UCC(4)", ε, 40, 1 / 100000000, some 6, 0⟩) :
    ∃ s', (WholeUcc4.cfg D o).step (WholeUcc4.initial D o S) = .ok s' ∧
      ¬ (WholeUcc4.initial D o S).diis.1.iterIdx < (WholeUcc4.initial D o S).diis.1.startIter := by
  subst ho
  set U := WholeUcc4.pass D ε (WholeUcc4.start ε S) with hU
  have hv := C12_first_extrapolation 6 0 (by omega) [] rfl (WholeUcc4.pack D U) (0 - WholeUcc4.pack D U)
  refine ⟨⟨WholeUcc4.unpack D (WholeUcc4.pack D U) U, WholeUcc4.start ε S, ((Diis.init 6 0).push (WholeUcc4.pack D U) (0 - WholeUcc4.pack D U), WholeUcc4.pack D U)⟩,
    (step_ok_iff _ _ _).2 ⟨U, ?_, ?_, rfl⟩, lt_irrefl 0⟩
  · simp only [WholeUcc4.cfg, WholeUcc4.initial]
    rw [if_pos (by decide +kernel)]
  simp only [WholeUcc4.cfg, WholeUcc4.accel, Option.isSome_some, if_true]
  simp only [WholeUcc4.initial, Option.getD_some]
  simp only [State.pushAll, List.foldl_nil] at hv
  rw [hv]

end Verif.Props
