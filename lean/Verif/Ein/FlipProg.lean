import Verif.Ein.Flip
import Verif.Ein.Ops2

/-!
# Programs with the spins exchanged

`P.flip` is the program `P` with every spin block replaced by the block with the other spins. On the blocks `A` it gives what
`P` gives on the exchanged blocks `A.flip`.
-/

namespace Verif.Ein

/-- The block with the other spins, its alpha indices first. -/
def Fac.flip (f : Fac) : Fac :=
  ⟨8 * (f.t / 8) + (f.ix.length / 2 - f.t % 8),
   rotHalf (f.t % 8) (f.ix.take (f.ix.length / 2)) ++ rotHalf (f.t % 8) (f.ix.drop (f.ix.length / 2))⟩

/-- Every block replaced by the one with the other spins. -/
def Prog.flip (P : Prog) : Prog := P.map fun b => ⟨b.c, b.fs.map Fac.flip, b.ps⟩

/-- A spin block with its number of indices. -/
def blockFac (f : Fac) : Bool :=
  !Nat.beq (axes (f.t / 8)) 0 && Nat.beq f.ix.length (axes (f.t / 8)) && Nat.ble (f.t % 8) (axes (f.t / 8) / 2)

theorem mem_rotHalf {I : Type} (b : Nat) (l : List I) (x : I) : x ∈ rotHalf b l ↔ x ∈ l := by
  unfold rotHalf
  rw [List.mem_append, or_comm, ← List.mem_append, List.take_append_drop]

theorem rotHalf_map {I J : Type} (r : I → J) (b : Nat) (l : List I) : rotHalf b (l.map r) = (rotHalf b l).map r := by
  simp [rotHalf, List.map_append, List.map_take, List.map_drop]

variable {I K : Type} [Field K] [Inhabited I] (D : Nat → Finset I)

/-- The exchanged program on the blocks is the program on the exchanged blocks. -/
theorem Prog.eval_flip (A : SI I K) (P : Prog) (hP : P.allFac blockFac = true) (xs : List I) :
    P.flip.eval D A.T xs = P.eval D A.flip.T xs := by
  unfold Prog.eval Prog.flip
  rw [List.map_map]
  congr 1
  refine List.map_congr_left fun b hb => ?_
  simp only [Prog.allFac, List.all_eq_true] at hP
  have hP := hP b hb
  simp only [Function.comp]
  rw [Blk.eval_eq, Blk.eval_eq]
  congr 2
  refine List.map_congr_left fun q _ => ?_
  congr 1
  have h1 : ∀ ρ, evalFs A.T (b.fs.map Fac.flip) ρ = evalFs A.flip.T b.fs ρ := by
    intro ρ
    clear hb
    revert hP
    generalize b.fs = fs
    intro hP
    induction fs with
    | nil => rfl
    | cons f fs ih =>
      simp only [List.map_cons, evalFs]
      rw [ih fun g hg => hP g (List.mem_cons_of_mem _ hg)]
      congr 1
      have hf := hP f List.mem_cons_self
      simp only [blockFac, Bool.and_eq_true, Bool.not_eq_true', Nat.ble_eq, Nat.beq_eq] at hf
      obtain ⟨⟨h0, hl⟩, hb⟩ := hf
      have e := A.flip_T (f.t / 8) (f.t % 8) (f.ix.map ρ) (fun h => by rw [h] at h0; cases h0) (by rw [List.length_map, hl]) hb
      rw [Nat.div_add_mod] at e
      rw [e]
      simp only [flipT, Fac.flip, List.length_map, ← List.map_take, ← List.map_drop, rotHalf_map, List.map_append]
  unfold raw
  rw [funext h1]
  refine (sumOver_perm D (dums_perm_of_vars q.2 (b.fs.map Fac.flip) b.fs fun y => ?_) _ _ (nodup_dums _ _))
  simp only [mem_vars, List.mem_map]
  have hm : ∀ f : Fac, y ∈ f.flip.ix ↔ y ∈ f.ix := fun f => by
    unfold Fac.flip
    rw [List.mem_append, mem_rotHalf, mem_rotHalf, ← List.mem_append, List.take_append_drop]
  exact ⟨fun ⟨f, hf, hy⟩ => ⟨_, ⟨f, hf, rfl⟩, (hm f).2 hy⟩, by
    rintro ⟨_, ⟨f, hf, rfl⟩, hy⟩; exact ⟨f, hf, (hm f).1 hy⟩⟩

end Verif.Ein
