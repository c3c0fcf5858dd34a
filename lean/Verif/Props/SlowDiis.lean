import Verif.Props.WholeSlow
import Verif.Props.Diis

/-!
# What DIIS does to the amplitudes of a spin-orbital calculation (C85)
-/

namespace Verif.Props

open Verif.Ein Verif.UT2 Verif.Kernel Verif.WholeSlow Verif.Py Verif.Diis

variable {I : Type} [DecidableEq I] [Inhabited I] (D : Nat → Finset I)

/-- The vector lists the amplitudes. -/
def Lists (x : WholeSlow.Slot D → ℝ) (S : SO I ℝ) : Prop :=
  ∀ a b i j (ha : a ∈ D 1) (hb : b ∈ D 1) (hi : i ∈ D 0) (hj : j ∈ D 0), x (⟨a, ha⟩, ⟨b, hb⟩, ⟨i, hi⟩, ⟨j, hj⟩) = S.t2 a b i j

omit [Inhabited I] in
theorem push_last {ι : Type} (s : State ι) (it er : ι → ℝ) (hs : ¬ s.iterIdx < s.startIter) (hn : 1 ≤ s.nvecs) :
    it ∈ (s.push it er).prev := by
  unfold State.push
  rw [if_neg hs]
  dsimp only
  split
  · next h =>
    cases hp : s.prev with
    | nil => rw [hp] at h; simp at h; omega
    | cons x l => simp
  · simp

/-- **C85** One pass with DIIS. While DIIS waits, the amplitudes are those of the update. Afterwards they are a combination, with
weights that sum to one, of the stored vectors; the amplitudes of the update are one of them. -/
theorem C85_diis (o : WholeSlow.Opts I) (hk : o.diis ≠ none) (s s' : St (SO I ℝ) (WholeSlow.Acc D)) (U : SO I ℝ)
    (hU : WholeSlow.resid D o.cc_type o.d2 s.amps = .ok U) (h : (WholeSlow.cfg D o).step s = .ok s') :
    (s.diis.1.iterIdx < s.diis.1.startIter → s'.amps = U) ∧
    (¬ s.diis.1.iterIdx < s.diis.1.startIter →
      (∃ w : Fin s'.diis.1.prev.length → ℝ, ∑ n, w n = 1 ∧
        ∀ a b i j (ha : a ∈ D 1) (hb : b ∈ D 1) (hi : i ∈ D 0) (hj : j ∈ D 0),
          s'.amps.t2 a b i j = ∑ n, w n * s'.diis.1.prev[n] (⟨a, ha⟩, ⟨b, hb⟩, ⟨i, hi⟩, ⟨j, hj⟩)) ∧
      (1 ≤ s.diis.1.nvecs → ∃ x ∈ s'.diis.1.prev, Lists D x U)) ∧
    (∀ x ∈ s'.diis.1.prev, x ∈ s.diis.1.prev ∨ Lists D x U) := by
  obtain ⟨a, ha, hb, -⟩ := (step_ok_iff _ _ _).1 h
  have haU : a = U := Except.ok.inj (ha.symm.trans hU)
  subst haU
  have hsome : o.diis.isSome = true := Option.isSome_iff_ne_none.2 hk
  simp only [WholeSlow.cfg, WholeSlow.accel, hsome, if_true] at hb
  split at hb
  · cases hb
  split at hb
  · cases hb
  · next v hv =>
    simp only [Except.ok.injEq, Prod.mk.injEq] at hb
    obtain ⟨hd, hu⟩ := hb
    have hd1 : s'.diis.1 = s.diis.1.push (WholeSlow.pack D a) (s.diis.2 - WholeSlow.pack D a) := by rw [← hd]
    have lists : Lists D (WholeSlow.pack D a) a := fun _ _ _ _ _ _ _ _ => rfl
    have read : ∀ p q i j (hp : p ∈ D 1) (hq : q ∈ D 1) (hi : i ∈ D 0) (hj : j ∈ D 0),
        s'.amps.t2 p q i j = v (⟨p, hp⟩, ⟨q, hq⟩, ⟨i, hi⟩, ⟨j, hj⟩) := fun p q i j hp hq hi hj => by
      rw [← hu]
      exact dif_pos ⟨hp, hq, hi, hj⟩
    refine ⟨fun hw => ?_, fun hw => ⟨?_, fun hn => ⟨_, hd1 ▸ push_last _ _ _ hw hn, lists⟩⟩, fun x hx => ?_⟩
    · rw [State.newVec, if_pos hw, Option.some.injEq] at hv
      subst hv
      rw [← hu]
      unfold WholeSlow.unpack
      have e : (fun p q i j => if h : p ∈ D 1 ∧ q ∈ D 1 ∧ i ∈ D 0 ∧ j ∈ D 0 then
          WholeSlow.pack D a (⟨p, h.1⟩, ⟨q, h.2.1⟩, ⟨i, h.2.2.1⟩, ⟨j, h.2.2.2⟩) else a.t2 p q i j) = a.t2 := by
        funext p q i j
        split
        · exact lists p q i j _ _ _ _
        · rfl
      rw [e]
    · obtain ⟨w, hw1, hw2⟩ := C12_affine_combination _ _ _ _ hw hv
      obtain ⟨B, l, d⟩ := s'
      subst hd
      refine ⟨w, hw1, fun p q i j hp hq hi hj => ?_⟩
      rw [read p q i j hp hq hi hj, hw2, Finset.sum_apply]
      rfl
    · rw [hd1] at hx
      unfold State.push at hx
      split at hx
      · exact .inl hx
      · dsimp only at hx
        have : x ∈ s.diis.1.prev ++ [WholeSlow.pack D a] := by
          split at hx
          · exact List.mem_of_mem_tail hx
          · exact hx
        rcases List.mem_append.1 this with h | h
        · exact .inl h
        · rw [List.mem_singleton.1 h]
          exact .inr lists

/-- A case: the first pass of a CCD calculation with DIIS from the start returns, and DIIS does not wait. -/
example (S : SO I ℝ) (d2 : I → I → I → I → ℝ) (o : WholeSlow.Opts I) (ho : o = ⟨"CCD", d2, 40, 1 / 100000000, some 6, 0⟩) :
    ∃ s', (WholeSlow.cfg D o).step (WholeSlow.initial D o S) = .ok s' ∧
      ¬ (WholeSlow.initial D o S).diis.1.iterIdx < (WholeSlow.initial D o S).diis.1.startIter := by
  subst ho
  obtain ⟨U, hU⟩ : ∃ U, WholeSlow.resid D "CCD" d2 (WholeSlow.start d2 S) = .ok U := by
    unfold WholeSlow.resid
    rw [if_neg (by decide +kernel)]
    exact ⟨_, rfl⟩
  have hv := C12_first_extrapolation 6 0 (by omega) [] rfl (WholeSlow.pack D U) (0 - WholeSlow.pack D U)
  refine ⟨⟨WholeSlow.unpack D (WholeSlow.pack D U) U, WholeSlow.start d2 S, ((Diis.init 6 0).push (WholeSlow.pack D U) (0 - WholeSlow.pack D U), WholeSlow.pack D U)⟩,
    (step_ok_iff _ _ _).2 ⟨U, ?_, ?_, rfl⟩, lt_irrefl 0⟩
  · simp only [WholeSlow.cfg, WholeSlow.initial]
    exact hU
  simp only [WholeSlow.cfg, WholeSlow.accel, Option.isSome_some, if_true]
  rw [if_neg (by decide +kernel)]
  simp only [WholeSlow.initial, Option.getD_some]
  simp only [State.pushAll, List.foldl_nil] at hv
  rw [hv]

end Verif.Props
