import Verif.Ein.Degree
import Verif.Lemmas.Contract

/-!
# Programs with scaled integrals and with amplitudes from the unit ball

The value of a program is a polynomial in the entries of its arrays. So it is bounded and Lipschitz when the arrays depend on a
vector of the unit ball in such a way, and when the arrays with given numbers are multiplied by `c`, a term that reads them `k` times
is multiplied by `c ^ k`.
-/

namespace Verif.Ein

open Verif.Weak

variable {I : Type} [Inhabited I] (D : Nat → Finset I)

section tame

variable {ι : Type} [Fintype ι] (T : (ι → ℝ) → Nat → List I → ℝ) (h : ∀ t l, Tame fun v => T v t l)
include h

omit [Inhabited I] in
theorem evalFs_tame (fs : List Fac) (ρ : Var → I) : Tame fun v => evalFs (T v) fs ρ := by
  induction fs with
  | nil => exact Tame.const 1
  | cons f fs ih => exact (h _ _).mul ih

omit [Inhabited I] h in
theorem sumOver_tame (F : (ι → ℝ) → (Var → I) → ℝ) (hF : ∀ ρ, Tame fun v => F v ρ) (L : List Var) : ∀ ρ, Tame fun v => sumOver D L (F v) ρ := by
  induction L with
  | nil => exact hF
  | cons x L ih => exact fun ρ => Tame.finsum _ fun i _ => ih _

/-- The value of a program is bounded and Lipschitz on the unit ball if the arrays are. -/
theorem Prog.eval_tame (P : Prog) (xs : List I) : Tame fun v => P.eval D (T v) xs := by
  unfold Prog.eval
  refine Tame.listsum P fun b _ => ?_
  unfold Blk.eval
  refine Tame.listsum b.ps fun p _ => ?_
  exact ((sumOver_tame D (fun v => evalFs (T v) b.fs) (evalFs_tame T h b.fs) _ _).smul _).smul _

end tame

/-- How often a term reads the arrays with these numbers. -/
def reads (ts : List Nat) (fs : List Fac) : Nat := (fs.filter fun f => ts.any fun t => Nat.beq f.t t).length

/-- Every term reads the arrays with these numbers exactly `k` times. -/
def Prog.readsEq (ts : List Nat) (k : Nat) (P : Prog) : Bool := P.all fun b => Nat.beq (reads ts b.fs) k

/-- Every term reads the arrays with these numbers at most once. -/
def Prog.readsLe (ts : List Nat) (P : Prog) : Bool := P.all fun b => Nat.ble (reads ts b.fs) 1

variable {K : Type} [Field K] {ts : List Nat} {c : K} {T U : Nat → List I → K}

omit [Inhabited I] in
theorem evalFs_scaled (h1 : ∀ t ∉ ts, ∀ l, U t l = T t l) (h2 : ∀ t ∈ ts, ∀ l, U t l = c * T t l) (fs : List Fac) (ρ : Var → I) :
    evalFs U fs ρ = c ^ reads ts fs * evalFs T fs ρ := by
  induction fs with
  | nil => simp [evalFs, reads]
  | cons f fs ih =>
    have hiff : (ts.any fun t => Nat.beq f.t t) = true ↔ f.t ∈ ts := by
      simp only [List.any_eq_true, Nat.beq_eq]
      exact ⟨fun ⟨t, ht, e⟩ => e ▸ ht, fun ht => ⟨_, ht, rfl⟩⟩
    simp only [evalFs, reads, List.filter_cons]
    by_cases hf : f.t ∈ ts
    · rw [if_pos (hiff.2 hf), List.length_cons, pow_succ, h2 _ hf, ih, reads]; ring
    · rw [if_neg (mt hiff.1 hf), h1 _ hf, ih, reads]; ring

theorem Blk.eval_scaled (h1 : ∀ t ∉ ts, ∀ l, U t l = T t l) (h2 : ∀ t ∈ ts, ∀ l, U t l = c * T t l) (b : Blk) (xs : List I) :
    b.eval D U xs = c ^ reads ts b.fs * b.eval D T xs := by
  simp only [Blk.eval]
  rw [← List.sum_map_mul_left]
  congr 1
  refine List.map_congr_left fun p _ => ?_
  have : sumOver D (dums p.2 b.fs) (evalFs U b.fs) (Ein.bind (fun _ => default) p.2 xs) =
      c ^ reads ts b.fs * sumOver D (dums p.2 b.fs) (evalFs T b.fs) (Ein.bind (fun _ => default) p.2 xs) := by
    rw [← sumOver_mul]
    congr 1
    funext ρ
    exact evalFs_scaled h1 h2 b.fs ρ
  simp only [termVal, this]
  ring

/-- Multiplying the arrays that every term reads `k` times. -/
theorem Prog.eval_scaled (h1 : ∀ t ∉ ts, ∀ l, U t l = T t l) (h2 : ∀ t ∈ ts, ∀ l, U t l = c * T t l) (P : Prog) (k : Nat)
    (hP : P.readsEq ts k = true) (xs : List I) : P.eval D U xs = c ^ k * P.eval D T xs := by
  unfold Prog.eval
  rw [← List.sum_map_mul_left]
  congr 1
  refine List.map_congr_left fun b hb => ?_
  simp only [Prog.readsEq, List.all_eq_true, Nat.beq_eq] at hP
  rw [Blk.eval_scaled D h1 h2, hP b hb]

/-- Multiplying the arrays that every term reads at most once: the value depends linearly on the factor. `Z` are the arrays with
those set to zero. -/
theorem Prog.eval_scaled_once {Z : Nat → List I → K} (h1 : ∀ t ∉ ts, ∀ l, U t l = T t l) (h2 : ∀ t ∈ ts, ∀ l, U t l = c * T t l)
    (z1 : ∀ t ∉ ts, ∀ l, Z t l = T t l) (z2 : ∀ t ∈ ts, ∀ l, Z t l = 0) (P : Prog) (hP : P.readsLe ts = true) (xs : List I) :
    P.eval D U xs = P.eval D Z xs + c * (P.eval D T xs - P.eval D Z xs) := by
  have hz := fun b : Blk => Blk.eval_scaled (K := K) (c := 0) D z1 (fun t ht l => by rw [z2 t ht l, zero_mul]) b xs
  have hu := fun b : Blk => Blk.eval_scaled D h1 h2 b xs
  simp only [Prog.readsLe, List.all_eq_true, Nat.ble_eq] at hP
  induction P with
  | nil => simp [Prog.eval]
  | cons b P ih =>
    rw [Prog.eval_cons, Prog.eval_cons, Prog.eval_cons, ih fun b hb => hP b (List.mem_cons_of_mem _ hb), hu, hz]
    have hk := hP b List.mem_cons_self
    rcases Nat.le_one_iff_eq_zero_or_eq_one.1 hk with h | h <;> rw [h] <;> ring

end Verif.Ein
