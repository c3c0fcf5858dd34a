import Verif.Model.Denoms
import Mathlib.Algebra.Order.Field.Basic
import Mathlib.Algebra.Order.Ring.Rat
import Mathlib.Tactic.NormNum
import Mathlib.Tactic.Linarith
import Mathlib.Tactic.Ring

/-! Properties C23, C24, C25: orbital-energy denominators. -/

namespace Verif.Props
open Verif.Denoms

variable {K : Type} [Field K] [DecidableEq K]

/-- Specification: sum of the occupied minus sum of the virtual orbital energies of the given spins, where
virtual position `x` of spin `σ` is orbital `n_σ + x`. -/
def gapSum (O : Orbs K) : List Spin → List ℕ → List ℕ → K
  | σ :: σs, v :: vs, o :: os => (O.eps σ o - O.eps σ (O.n σ + v)) + gapSum O σs vs os
  | _, _, _ => 0

/-- Specification of a denominator entry: the inverse of `gapSum`, undefined when that is zero. -/
def denomSpec (O : Orbs K) (σs : List Spin) (vs os : List ℕ) : Option K :=
  if gapSum O σs vs os = 0 then none else some (1 / gapSum O σs vs os)

/-- The array named by the spin letters `σs` is right for the orbitals `O`. -/
def Right (O : Orbs K) (σs : List Spin) (D : Den) : Prop :=
  ∀ vs os : List ℕ, vs.length = σs.length → os.length = σs.length →
    D.entry O vs os = denomSpec O σs vs os

theorem entry_eq_spec (O : Orbs K) (σs : List Spin) (D : Den)
    (h : ∀ vs os : List ℕ, vs.length = σs.length → os.length = σs.length →
      -((List.zipWith (O.virt) D.vs vs).sum) + (List.zipWith (O.occ) D.os os).sum
        = gapSum O σs vs os) : Right O σs D := by
  intro vs os h1 h2
  simp only [Den.entry, denomSpec]
  rw [h vs os h1 h2]

/-- A diagonal array: every axis reads the energies of a spin through the slice of the same spin. -/
theorem right_of_diag (O : Orbs K) (σs : List Spin) :
    Right O σs ⟨σs.map (fun σ => x σ σ), σs.map (fun σ => x σ σ)⟩ := by
  apply entry_eq_spec
  induction σs with
  | nil =>
    intro vs os h1 h2
    simp [gapSum]
  | cons σ σs ih =>
    intro vs os h1 h2
    cases vs with
    | nil => simp at h1
    | cons v vs =>
      cases os with
      | nil => simp at h2
      | cons o os =>
        have := ih vs os (by simpa using h1) (by simpa using h2)
        simp only [List.map_cons, List.zipWith_cons_cons, List.sum_cons, gapSum]
        rw [← this]
        simp only [Orbs.virt, Orbs.occ]
        ring

/-- **C23** The doubles denominators of all spin cases, for every set of alpha and beta orbital energies
(restricted or not), occupation numbers and indices. -/
theorem C23_doubles (O : Orbs K) :
    Right O [.a, .a] D2aa ∧ Right O [.b, .b] D2bb ∧ Right O [.a, .b] D2ab :=
  ⟨right_of_diag O [.a, .a], right_of_diag O [.b, .b], right_of_diag O [.a, .b]⟩

/-- **C23** written out for one spin case. -/
theorem C23_D2ab_entry (O : Orbs K) (a b i j : ℕ)
    (h : O.epsA i + O.epsB j - O.epsA (O.na + a) - O.epsB (O.nb + b) ≠ 0) :
    D2ab.entry O [a, b] [i, j] =
      some (1 / (O.epsA i + O.epsB j - O.epsA (O.na + a) - O.epsB (O.nb + b))) := by
  rw [(C23_doubles O).2.2 [a, b] [i, j] rfl rfl, denomSpec]
  have : gapSum O [.a, .b] [a, b] [i, j] =
      O.epsA i + O.epsB j - O.epsA (O.na + a) - O.epsB (O.nb + b) := by
    simp only [gapSum, Orbs.eps, Orbs.n]; ring
  rw [this, if_neg h]

/-- An unrestricted system with different alpha and beta energies. -/
def uhfWitness : Orbs ℚ := ⟨fun n => n, fun n => 10 * n, 1, 1⟩

theorem not_right_of_ne (σs : List Spin) (D : Den) (vs os : List ℕ) (h1 : vs.length = σs.length)
    (h2 : os.length = σs.length)
    (h : -((List.zipWith (uhfWitness.virt) D.vs vs).sum) + (List.zipWith (uhfWitness.occ) D.os os).sum
        ≠ gapSum uhfWitness σs vs os)
    (h0 : gapSum uhfWitness σs vs os ≠ 0) : ¬ Right uhfWitness σs D := by
  intro hr
  have := hr vs os h1 h2
  simp only [Den.entry, denomSpec, if_neg h0] at this
  split at this
  · cases this
  · simp only [one_div, Option.some.injEq, inv_inj] at this
    exact h this

/-- **C24** is violated: for an unrestricted reference, each of these arrays has a wrong entry. (`D3aab`,
`D3abb`, `D4aaab`, ... read energies or slices of the other spin; `D1bb` reads alpha occupied
energies.) -/
theorem C24_violated :
    (¬ Right (⟨fun n => n, fun n => 10 * n + 1, 1, 1⟩ : Orbs ℚ) [.b] D1bb) ∧
    ¬ Right uhfWitness [.a, .a, .b] D3aab ∧ ¬ Right uhfWitness [.a, .b, .b] D3abb ∧
    (¬ Right (⟨fun n => n, fun n => 10 * n, 1, 2⟩ : Orbs ℚ) [.a, .a, .b, .b] D4aabb) ∧
    (¬ Right (⟨fun n => n, fun n => n, 1, 2⟩ : Orbs ℚ) [.a, .a, .a, .b] D4aaab) ∧
    (¬ Right (⟨fun n => n, fun n => n, 1, 2⟩ : Orbs ℚ) [.a, .b, .b, .b] D4abbb) := by
  refine ⟨?_, ?_, ?_, ?_, ?_, ?_⟩
  · intro h
    have := h [0] [0] rfl rfl
    norm_num [Den.entry, denomSpec, D1bb, gapSum, Orbs.virt, Orbs.occ, Orbs.eps, Orbs.n] at this
  · -- the mix-up of the second and third axis is visible only for different indices
    apply not_right_of_ne _ _ [0, 1, 0] [0, 0, 0] rfl rfl <;>
      norm_num [D3aab, gapSum, Orbs.virt, Orbs.occ, Orbs.eps, Orbs.n, uhfWitness]
  · apply not_right_of_ne _ _ [0, 0, 0] [0, 0, 0] rfl rfl <;>
      norm_num [D3abb, gapSum, Orbs.virt, Orbs.occ, Orbs.eps, Orbs.n, uhfWitness]
  · intro h
    have := h [0, 0, 0, 0] [0, 0, 0, 0] rfl rfl
    norm_num [Den.entry, denomSpec, D4aabb, gapSum, Orbs.virt, Orbs.occ, Orbs.eps, Orbs.n] at this
  · intro h
    have := h [0, 0, 0, 0] [0, 0, 0, 0] rfl rfl
    norm_num [Den.entry, denomSpec, D4aaab, gapSum, Orbs.virt, Orbs.occ, Orbs.eps, Orbs.n] at this
  · intro h
    have := h [0, 0, 0, 0] [0, 0, 0, 0] rfl rfl
    norm_num [Den.entry, denomSpec, D4abbb, gapSum, Orbs.virt, Orbs.occ, Orbs.eps, Orbs.n] at this

/-- **C24** What holds: the same-spin arrays except `D1bb` are right for every reference; and every array of
the table is right for a restricted reference (equal energies and occupations of both spins). Partial:
the mixed-spin arrays and `D1bb` are wrong for unrestricted references. -/
theorem C24_higher_partial (O : Orbs K) :
    (Right O [.a] D1aa ∧ Right O [.a, .a, .a] D3aaa ∧ Right O [.b, .b, .b] D3bbb ∧
      Right O [.a, .a, .a, .a] D4aaaa ∧ Right O [.b, .b, .b, .b] D4bbbb) ∧
    (O.epsA = O.epsB → O.na = O.nb → ∀ p ∈ table, Right O p.2.1 p.2.2) := by
  refine ⟨⟨right_of_diag O [.a], right_of_diag O [.a, .a, .a], right_of_diag O [.b, .b, .b],
    right_of_diag O [.a, .a, .a, .a], right_of_diag O [.b, .b, .b, .b]⟩, ?_⟩
  intro hE hN p hp
  obtain ⟨eA, eB, na, nb⟩ := O
  simp only at hE hN
  subst hE; subst hN
  have hv : ∀ (ax ax' : Axis) (n : ℕ), (⟨eA, eA, na, na⟩ : Orbs K).virt ax n =
      (⟨eA, eA, na, na⟩ : Orbs K).virt ax' n := by
    intro ax ax' n
    obtain ⟨s1, s2⟩ := ax; obtain ⟨s3, s4⟩ := ax'
    cases s1 <;> cases s2 <;> cases s3 <;> cases s4 <;> rfl
  have ho : ∀ (ax ax' : Axis) (n : ℕ), (⟨eA, eA, na, na⟩ : Orbs K).occ ax n =
      (⟨eA, eA, na, na⟩ : Orbs K).occ ax' n := by
    intro ax ax' n
    obtain ⟨s1, s2⟩ := ax; obtain ⟨s3, s4⟩ := ax'
    cases s1 <;> cases s3 <;> rfl
  have hlen : ∀ (f : Axis → ℕ → K), (∀ ax ax' n, f ax n = f ax' n) → ∀ (l l' : List Axis) (ix : List ℕ),
      l.length = l'.length → List.zipWith f l ix = List.zipWith f l' ix := by
    intro f hf l
    induction l with
    | nil => intro l' ix h; cases l' with
      | nil => rfl
      | cons _ _ => simp at h
    | cons ax l ih =>
      intro l' ix h
      cases l' with
      | nil => simp at h
      | cons ax' l' =>
        cases ix with
        | nil => rfl
        | cons i ix =>
          simp only [List.zipWith_cons_cons]
          rw [hf ax ax' i, ih l' ix (by simpa using h)]
  have gen : ∀ (σs : List Spin) (D : Den), D.vs.length = σs.length → D.os.length = σs.length →
      Right (⟨eA, eA, na, na⟩ : Orbs K) σs D := by
    intro σs D h1 h2 vs os h3 h4
    rw [← right_of_diag (⟨eA, eA, na, na⟩ : Orbs K) σs vs os h3 h4]
    simp only [Den.entry]
    rw [hlen _ hv D.vs (σs.map fun σ => x σ σ) vs (by simp [h1]),
      hlen _ ho D.os (σs.map fun σ => x σ σ) os (by simp [h2])]
  simp only [table, List.mem_cons, List.not_mem_nil, or_false] at hp
  rcases hp with rfl | rfl | rfl | rfl | rfl | rfl | rfl | rfl | rfl | rfl | rfl | rfl | rfl | rfl <;>
    exact gen _ _ rfl rfl

/-! ## C25 -/

/-- Every occupied orbital energy (either spin) is below every virtual one (either spin). `N` is the number
of orbitals. -/
def Gapped {K : Type} [LT K] (O : Orbs K) (N : ℕ) : Prop :=
  ∀ σ τ i a, i < O.n σ → O.n τ ≤ a → a < N → O.eps σ i < O.eps τ a

/-- **C25** With a gap, every entry of every doubles denominator, and of every same-spin singles, triples
and quadruples denominator (except `D1bb`, see C24), at indices inside the slices, is defined and
negative. -/
theorem C25_negative {K : Type} [Field K] [LinearOrder K] [IsStrictOrderedRing K]
    (O : Orbs K) (N : ℕ) (hg : Gapped O N) (σs : List Spin) (hne : σs ≠ []) (D : Den)
    (hD : Right O σs D) (vs os : List ℕ) (hv : vs.length = σs.length) (ho : os.length = σs.length)
    (hvs : ∀ p ∈ σs.zip vs, O.n p.1 + p.2 < N) (hos : ∀ p ∈ σs.zip os, p.2 < O.n p.1) :
    ∃ q, D.entry O vs os = some q ∧ q < 0 := by
  have neg : gapSum O σs vs os < 0 := by
    clear hD
    induction σs generalizing vs os with
    | nil => exact absurd rfl hne
    | cons σ σs ih =>
      cases vs with
      | nil => simp at hv
      | cons v vs =>
        cases os with
        | nil => simp at ho
        | cons o os =>
          have h1 := hvs (σ, v) (by simp)
          have h2 := hos (σ, o) (by simp)
          have h3 := hg σ σ o (O.n σ + v) h2 (by omega) h1
          simp only [gapSum]
          cases σs with
          | nil => simp [gapSum]; linarith
          | cons τ τs =>
            have := ih (by simp) vs os (by simpa using hv) (by simpa using ho)
              (fun p hp => hvs p (by simp [List.zip_cons_cons, hp]))
              (fun p hp => hos p (by simp [List.zip_cons_cons, hp]))
            linarith
  refine ⟨1 / gapSum O σs vs os, ?_, one_div_neg.2 neg⟩
  rw [hD vs os hv ho, denomSpec, if_neg (ne_of_lt neg)]

/-- **C25** for the arrays that are wrong according to C24 as well: with a gap and the same number of alpha
and beta electrons every entry of every array of the table is defined and negative. Partial: see
`C25_violated` for different numbers. -/
theorem C25_equal_occupation_partial {K : Type} [Field K] [LinearOrder K] [IsStrictOrderedRing K]
    (O : Orbs K) (N : ℕ) (hN : O.na = O.nb) (hg : Gapped O N) (p : String × List Spin × Den)
    (hp : p ∈ table) (vs os : List ℕ) (hv : vs.length = p.2.1.length) (ho : os.length = p.2.1.length)
    (hvs : ∀ v ∈ vs, O.na + v < N) (hos : ∀ o ∈ os, o < O.na) :
    ∃ q, p.2.2.entry O vs os = some q ∧ q < 0 := by
  have hn : ∀ σ, O.n σ = O.na := by intro σ; cases σ; rfl; exact hN.symm
  have key : ∀ (lv lo : List Axis) (vs os : List ℕ), lv ≠ [] → lo.length = lv.length →
      vs.length = lv.length → os.length = lv.length → (∀ v ∈ vs, O.na + v < N) → (∀ o ∈ os, o < O.na) →
      -((List.zipWith (O.virt) lv vs).sum) + (List.zipWith (O.occ) lo os).sum < 0 := by
    intro lv
    induction lv with
    | nil => intro _ _ _ h; exact absurd rfl h
    | cons ax lv ih =>
      intro lo vs os _ h1 h2 h3 h4 h5
      cases lo with
      | nil => simp at h1
      | cons ax' lo =>
        cases vs with
        | nil => simp at h2
        | cons v vs =>
          cases os with
          | nil => simp at h3
          | cons o os =>
            have hlt : O.occ ax' o < O.virt ax v := by
              refine hg ax'.arr ax.arr o _ ?_ ?_ ?_
              · rw [hn]; exact h5 o (by simp)
              · rw [hn, hn]; omega
              · rw [hn]; exact h4 v (by simp)
            simp only [List.zipWith_cons_cons, List.sum_cons]
            by_cases hl : lv = []
            · subst hl
              have : lo = [] := by cases lo; rfl; simp at h1
              subst this
              simp; linarith
            · have := ih lo vs os hl (by simpa using h1) (by simpa using h2) (by simpa using h3)
                (fun v hv => h4 v (List.mem_cons_of_mem _ hv))
                (fun o ho => h5 o (List.mem_cons_of_mem _ ho))
              linarith
  have hshape : p.2.2.vs ≠ [] ∧ p.2.2.os.length = p.2.2.vs.length ∧
      p.2.1.length = p.2.2.vs.length := by
    simp only [table, List.mem_cons, List.not_mem_nil, or_false] at hp
    rcases hp with rfl | rfl | rfl | rfl | rfl | rfl | rfl | rfl | rfl | rfl | rfl | rfl | rfl | rfl <;>
      simp [D2aa, D2bb, D2ab, D1aa, D1bb, D3aaa, D3bbb, D3aab, D3abb, D4aaaa, D4bbbb, D4aaab, D4aabb,
        D4abbb]
  obtain ⟨s1, s2, s3⟩ := hshape
  have neg := key p.2.2.vs p.2.2.os vs os s1 s2 (by omega) (by omega) hvs hos
  refine ⟨_, ?_, one_div_neg.2 neg⟩
  simp only [Den.entry, if_neg (ne_of_lt neg)]

/-- **C25** for different numbers of alpha and beta electrons: if in addition the energies of each spin are
sorted, every entry of every array of the table except `D1bb` is defined and negative. Partial: `D1bb`
is excluded. -/
theorem C25_sorted_partial {K : Type} [Field K] [LinearOrder K] [IsStrictOrderedRing K]
    (O : Orbs K) (N : ℕ) (hs : ∀ σ i j, i ≤ j → O.eps σ i ≤ O.eps σ j) (hg : Gapped O N)
    (p : String × List Spin × Den) (hp : p ∈ table) (hD1 : p.1 ≠ "D1bb")
    (vs os : List ℕ) (hv : vs.length = p.2.1.length) (ho : os.length = p.2.1.length)
    (hvs : ∀ q ∈ p.2.2.vs.zip vs, O.n q.1.sl + q.2 < N) (hos : ∀ q ∈ p.2.2.os.zip os, q.2 < O.n q.1.sl) :
    ∃ q, p.2.2.entry O vs os = some q ∧ q < 0 := by
  have key : ∀ (l : List Axis) (vs os : List ℕ), vs.length = l.length → os.length = l.length →
      (∀ q ∈ l.zip vs, O.n q.1.sl + q.2 < N) → (∀ q ∈ l.zip os, q.2 < O.n q.1.sl) →
      -((List.zipWith (O.virt) l vs).sum) + (List.zipWith (O.occ) l os).sum ≤ 0 := by
    intro l
    induction l with
    | nil => intro vs os _ _ _ _; simp
    | cons ax l ih =>
      intro vs os h2 h3 h4 h5
      cases vs with
      | nil => simp at h2
      | cons v vs =>
        cases os with
        | nil => simp at h3
        | cons o os =>
          have hlt : O.occ ax o ≤ O.virt ax v := by
            refine hs ax.arr o _ ?_
            have := h5 (ax, o) (by simp)
            simp only at this
            omega
          have := ih vs os (by simpa using h2) (by simpa using h3)
            (fun q hq => h4 q (by simp [List.zip_cons_cons, hq]))
            (fun q hq => h5 q (by simp [List.zip_cons_cons, hq]))
          simp only [List.zipWith_cons_cons, List.sum_cons]
          linarith
  have hshape : p.2.2.vs = p.2.2.os ∧ p.2.1.length = p.2.2.vs.length ∧
      ∃ σ l, p.2.2.vs = ⟨σ, σ⟩ :: l := by
    simp only [table, List.mem_cons, List.not_mem_nil, or_false] at hp
    rcases hp with rfl | rfl | rfl | rfl | rfl | rfl | rfl | rfl | rfl | rfl | rfl | rfl | rfl | rfl <;>
      first
      | exact absurd rfl hD1
      | simp [D2aa, D2bb, D2ab, D1aa, D3aaa, D3bbb, D3aab, D3abb, D4aaaa, D4bbbb, D4aaab, D4aabb,
          D4abbb]
  obtain ⟨s1, s2, σ, l, s3⟩ := hshape
  have neg : -((List.zipWith (O.virt) p.2.2.vs vs).sum) + (List.zipWith (O.occ) p.2.2.os os).sum < 0 := by
    rw [← s1] at hos ⊢
    rw [s2] at hv ho
    rw [s3] at hvs hos hv ho ⊢
    cases vs with
    | nil => simp at hv
    | cons v vs =>
      cases os with
      | nil => simp at ho
      | cons o os =>
        have h1 := hg σ σ o (O.n σ + v) (hos (⟨σ, σ⟩, o) (by simp)) (by omega)
          (hvs (⟨σ, σ⟩, v) (by simp))
        have h2 := key l vs os (by simpa using hv) (by simpa using ho)
          (fun q hq => hvs q (by simp [List.zip_cons_cons, hq]))
          (fun q hq => hos q (by simp [List.zip_cons_cons, hq]))
        simp only [List.zipWith_cons_cons, List.sum_cons, Orbs.virt, Orbs.occ] at h1 h2 ⊢
        linarith
  refine ⟨_, ?_, one_div_neg.2 neg⟩
  simp only [Den.entry, if_neg (ne_of_lt neg)]

/-- **C25** is violated by `D1bb`: one alpha and two beta electrons in three orbitals, sorted energies with
a gap, and yet the entry `[0,1]` divides by zero. -/
theorem C25_violated :
    let O : Orbs ℚ := ⟨fun n => if n = 0 then -1 else 1, fun n => if n < 2 then -1 else 1, 1, 2⟩
    Gapped O 3 ∧ (∀ σ i j, i ≤ j → O.eps σ i ≤ O.eps σ j) ∧ D1bb.entry O [0] [1] = none := by
  refine ⟨?_, ?_, ?_⟩
  · intro σ τ i a h1 h2 _
    cases σ <;> cases τ <;> simp only [Orbs.eps, Orbs.n] at * <;> (repeat' split) <;>
      first | omega | norm_num
  · intro σ i j h
    cases σ <;> simp only [Orbs.eps] <;> (repeat' split) <;> first | omega | norm_num
  · norm_num [Den.entry, D1bb, Orbs.virt, Orbs.occ, Orbs.eps, Orbs.n]

-- a gapped system: two occupied and two virtual orbitals
example : Gapped (⟨fun n => n, fun n => n, 2, 2⟩ : Orbs ℚ) 4 := by
  intro σ τ i a h1 h2 _
  have h1' : i < 2 := by cases σ <;> exact h1
  have h2' : 2 ≤ a := by cases τ <;> exact h2
  have : i < a := by omega
  cases σ <;> cases τ <;> simp only [Orbs.eps] <;> exact_mod_cast this

example : D2ab.entry (⟨fun n => n, fun n => n, 2, 2⟩ : Orbs ℚ) [0, 1] [0, 1] = some (-1/4) := by
  norm_num [Den.entry, D2ab, Orbs.virt, Orbs.occ, Orbs.eps, Orbs.n]

end Verif.Props
