import Verif.Model.Xccd
import Verif.Props.Driver

/-! Property C20: orders 7 and 9 read the quadruples of the same evaluation. -/

namespace Verif.Props
open Verif.Driver Verif.Xccd

variable {T Q : Type}

/-- Once the file holds the array of `t`, a loop over orders 5..9 keeps it and reads only it. -/
theorem xccd_loop_fresh (build : T → Q) (t : T) (l : List ℕ) (hl : ∀ n ∈ l, 5 ≤ n ∧ n ≤ 9) :
    ∃ rs, Xccd.loop build t l (some (build t)) = .ok (some (build t), rs) ∧
      rs.length = l.countP (fun n => n = 7 ∨ n = 9) ∧ ∀ q ∈ rs, q = build t := by
  induction l with
  | nil => exact ⟨[], rfl, rfl, by simp⟩
  | cons n ns ih =>
    obtain ⟨rs, h1, h2, h3⟩ := ih (fun m hm => hl m (List.mem_cons_of_mem _ hm))
    obtain ⟨h5, h9⟩ := hl n (List.mem_cons_self ..)
    have : n = 5 ∨ n = 6 ∨ n = 7 ∨ n = 8 ∨ n = 9 := by omega
    rcases this with rfl | rfl | rfl | rfl | rfl
    · exact ⟨rs, by simp [Xccd.loop, Xccd.call, h1], by simp [h2], h3⟩
    · exact ⟨rs, by simp [Xccd.loop, Xccd.call, h1], by simp [h2], h3⟩
    · exact ⟨build t :: rs, by simp [Xccd.loop, Xccd.call, h1], by simp [h2], by simpa using h3⟩
    · exact ⟨rs, by simp [Xccd.loop, Xccd.call, h1], by simp [h2], h3⟩
    · exact ⟨build t :: rs, by simp [Xccd.loop, Xccd.call, h1], by simp [h2], by simpa using h3⟩

/-- **C20** (one evaluation) For a name with a digit, whatever was on disk, the evaluation goes through;
it reads once per order 7 or 9, and every array read was built from its own inputs. -/
theorem C20_one_evaluation (build : T → Q) (name : List Char) (hd : ∃ c ∈ name, c.isDigit = true)
    (t : T) (f : Option Q) :
    ∃ l f' rs, extractInteger name = some l ∧ eval build name t f = .ok (f', rs) ∧
      rs.length = l.countP (fun n => n = 7 ∨ n = 9) ∧ ∀ q ∈ rs, q = build t := by
  cases hl : extractInteger name with
  | none =>
    obtain ⟨c, hc, hcd⟩ := hd
    rw [C19_absent_iff] at hl
    rw [hl c hc] at hcd; cases hcd
  | some l =>
    unfold eval; rw [hl]; simp only
    unfold extractInteger at hl
    cases hg : (name.filterMap digitVal).getLast? with
    | none => rw [hg] at hl; cases hl
    | some n =>
      rw [hg] at hl
      simp only [Option.some.injEq] at hl
      have hn9 : n ≤ 9 := by
        have hm := List.mem_of_getLast? hg
        rw [List.mem_filterMap] at hm
        obtain ⟨c, _, hc⟩ := hm
        unfold digitVal at hc
        split at hc
        · rename_i h
          simp only [Option.some.injEq] at hc
          have h2 : c.toNat ≤ '9'.toNat := h.2
          have e1 : '9'.toNat = 57 := rfl
          have e2 : '0'.toNat = 48 := rfl
          omega
        · cases hc
      have hmem : ∀ k ∈ l, 5 ≤ k ∧ k ≤ 9 := by
        rw [← hl]; intro k
        simp only [List.mem_map, List.mem_range]
        rintro ⟨a, ha, rfl⟩; omega
      cases hcase : l with
      | nil => exact ⟨[], f, [], rfl, rfl, rfl, by simp⟩
      | cons k ks =>
        have hk5 : k = 5 := by
          rw [hcase] at hl
          cases hm : n + 1 - 5 with
          | zero => rw [hm] at hl; cases hl
          | succ m =>
            rw [hm, List.range_succ_eq_map] at hl
            simp at hl; omega
        subst hk5
        obtain ⟨rs, h1, h2, h3⟩ := xccd_loop_fresh build t ks
          (fun m hm => hmem m (by rw [hcase]; exact List.mem_cons_of_mem _ hm))
        refine ⟨5 :: ks, some (build t), rs, rfl, ?_, by simp [h2], h3⟩
        simp [Xccd.loop, Xccd.call, h1]

/-- **C20** For every initial file content and every sequence of evaluations, of any calculations with any
amplitudes, whose method names contain a digit: all of them go through, and every array read back from
disk was built from the inputs of the evaluation that reads it. -/
theorem C20_reads_are_fresh (build : T → Q) (evs : List (List Char × T)) (f : Option Q)
    (hd : ∀ e ∈ evs, ∃ c ∈ e.1, c.isDigit = true) :
    ∃ tr, history build evs f = .ok tr ∧ tr.map Prod.fst = evs.map Prod.snd ∧
      ∀ p ∈ tr, ∀ q ∈ p.2, q = build p.1 := by
  induction evs generalizing f with
  | nil => exact ⟨[], rfl, rfl, by simp⟩
  | cons e rest ih =>
    obtain ⟨name, t⟩ := e
    obtain ⟨l, f', rs, _, h2, _, h4⟩ :=
      C20_one_evaluation build name (hd _ (List.mem_cons_self ..)) t f
    obtain ⟨tr, h5, h6, h7⟩ := ih f' (fun e he => hd e (List.mem_cons_of_mem _ he))
    refine ⟨(t, rs) :: tr, by simp [history, h2, h5], by simp [h6], ?_⟩
    intro p hp
    rcases List.mem_cons.1 hp with rfl | hp
    · exact h4
    · exact h7 p hp

-- two evaluations with different amplitudes, a stale file on disk: each reads its own array, twice
example : history (fun t : ℕ => t * 10) [("XCCD(9)".toList, 1), ("UT2-CCD(7)".toList, 2)] (some 77)
    = .ok [(1, [10, 10]), (2, [20])] := by decide

end Verif.Props
