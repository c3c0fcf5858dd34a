import Verif.Model.Alias
import Mathlib.Tactic.FinCases

/-!
# Aliased arrays (C58)

The specification is the same program with values instead of references: every name has its own array, `x = y` copies.
-/

namespace Verif.Props
open Verif.Alias

variable {V : Type}

/-- One operation when every name holds its own array. -/
def valueStep (e : String → V) : Op V → String → V
  | .calc x rs f => Function.update e x (f (rs.map e))
  | .alias x y => Function.update e x (e y)
  | .upd x rs f => Function.update e x (f (rs.map e))

def valueRun (e : String → V) (ops : List (Op V)) : String → V := ops.foldl valueStep e

/-- A condition on programs: in-place changes only hit arrays that were computed since and that no other name in use
refers to (`own`). Names in `dead` are never read. -/
def disciplined (dead : List String) : List String → List (Op V) → Bool
  | _, [] => true
  | own, .calc x rs _ :: ops =>
    rs.all (fun r => !dead.contains r) && !dead.contains x && disciplined dead (x :: own) ops
  | own, .alias x y :: ops =>
    !dead.contains y && disciplined dead (if dead.contains x then own else own.filter fun z => z ≠ x && z ≠ y) ops
  | own, .upd x rs _ :: ops =>
    rs.all (fun r => !dead.contains r) && !dead.contains x && own.contains x && disciplined dead own ops

/-- Names in use hold the right values, refer to existing arrays, and owned arrays are not shared. -/
structure Agree (dead own : List String) (h : Heap V) (e : String → V) : Prop where
  val : ∀ x ∉ dead, h.val x = e x
  lt : ∀ x ∉ dead, h.env x < h.next
  own : ∀ x ∈ own, x ∉ dead ∧ ∀ y ∉ dead, y ≠ x → h.env y ≠ h.env x

theorem Agree.weaken {dead own : List String} {h : Heap V} {e : String → V} (a : Agree dead own h e) : Agree dead [] h e :=
  ⟨a.val, a.lt, by simp⟩

theorem map_val {dead : List String} {h : Heap V} {e : String → V} (hv : ∀ x ∉ dead, h.val x = e x) (rs : List String)
    (hr : rs.all (fun r => !dead.contains r) = true) : rs.map h.val = rs.map e := by
  apply List.map_congr_left
  intro r hm
  have := List.all_eq_true.1 hr r hm
  exact hv r (by simpa using this)

/-- A disciplined program computes with references what it computes with values. -/
theorem agree_run (dead : List String) (ops : List (Op V)) (own : List String) (h : Heap V) (e : String → V)
    (hd : disciplined dead own ops = true) (a : Agree dead own h e) :
    Agree dead [] (h.run ops) (valueRun e ops) := by
  induction ops generalizing own h e with
  | nil => exact a.weaken
  | cons o ops ih =>
    cases o with
    | «calc» x rs f =>
      simp only [disciplined, Bool.and_eq_true] at hd
      obtain ⟨⟨hr, hx⟩, hd⟩ := hd
      have hx' : x ∉ dead := by simpa using hx
      refine ih (x :: own) _ _ hd ⟨?_, ?_, ?_⟩
      · intro y hy
        by_cases hyx : y = x
        · subst hyx
          simp [Heap.step, valueStep, Heap.val, map_val a.val rs hr]
        · have := a.val y hy
          have hl := a.lt y hy
          simp only [Heap.val] at this
          simp [Heap.step, valueStep, Heap.val, Function.update_of_ne hyx, Function.update_of_ne (Nat.ne_of_lt hl), this]
      · intro y hy
        have hl := a.lt y hy
        by_cases hyx : y = x
        · subst hyx; simp [Heap.step]
        · simp [Heap.step, Function.update_of_ne hyx]; omega
      · intro y hy
        rcases List.mem_cons.1 hy with rfl | hy
        · refine ⟨hx', fun z hz hzy => ?_⟩
          have hl := a.lt z hz
          simp [Heap.step, Function.update_of_ne hzy]; omega
        · obtain ⟨hyd, hyo⟩ := a.own y hy
          refine ⟨hyd, fun z hz hzy => ?_⟩
          by_cases hyx : y = x
          · subst hyx
            have hl := a.lt z hz
            simp [Heap.step, Function.update_of_ne hzy]; omega
          · by_cases hzx : z = x
            · subst hzx
              have hl := a.lt y hyd
              simp [Heap.step, Function.update_of_ne hyx]; omega
            · simp [Heap.step, Function.update_of_ne hyx, Function.update_of_ne hzx, hyo z hz hzy]
    | «alias» x y =>
      simp only [disciplined, Bool.and_eq_true] at hd
      obtain ⟨hy, hd⟩ := hd
      have hy' : y ∉ dead := by simpa using hy
      refine ih _ _ _ hd ⟨?_, ?_, ?_⟩
      · intro z hz
        by_cases hzx : z = x
        · subst hzx
          have := a.val y hy'
          simpa [Heap.step, valueStep, Heap.val] using this
        · have := a.val z hz
          simpa [Heap.step, valueStep, Heap.val, Function.update_of_ne hzx] using this
      · intro z hz
        by_cases hzx : z = x
        · subst hzx; simpa [Heap.step] using a.lt y hy'
        · simpa [Heap.step, Function.update_of_ne hzx] using a.lt z hz
      · intro z hz
        by_cases hxd : x ∈ dead
        · rw [if_pos (by simpa using hxd)] at hz
          obtain ⟨hzd, hzo⟩ := a.own z hz
          refine ⟨hzd, fun w hw hwz => ?_⟩
          have h1 : z ≠ x := by rintro rfl; exact hzd hxd
          have h2 : w ≠ x := by rintro rfl; exact hw hxd
          simpa [Heap.step, Function.update_of_ne h1, Function.update_of_ne h2] using hzo w hw hwz
        · rw [if_neg (by simpa using hxd)] at hz
          simp only [List.mem_filter, Bool.and_eq_true, decide_eq_true_eq] at hz
          obtain ⟨hz, h1, h2⟩ := hz
          have h1 : z ≠ x := by simpa using h1
          have h2 : z ≠ y := by simpa using h2
          obtain ⟨hzd, hzo⟩ := a.own z hz
          refine ⟨hzd, fun w hw hwz => ?_⟩
          by_cases hwx : w = x
          · subst hwx
            simpa [Heap.step, Function.update_of_ne h1] using hzo y hy' (Ne.symm h2)
          · simpa [Heap.step, Function.update_of_ne h1, Function.update_of_ne hwx] using hzo w hw hwz
    | upd x rs f =>
      simp only [disciplined, Bool.and_eq_true] at hd
      obtain ⟨⟨⟨hr, hx⟩, hxo⟩, hd⟩ := hd
      have hxo' : x ∈ own := by simpa using hxo
      obtain ⟨hxd, hxs⟩ := a.own x hxo'
      refine ih own _ _ hd ⟨?_, a.lt, a.own⟩
      intro y hy
      by_cases hyx : y = x
      · subst hyx
        simp [Heap.step, valueStep, Heap.val, map_val a.val rs hr]
      · have := a.val y hy
        simp only [Heap.val] at this
        simp [Heap.step, valueStep, Heap.val, Function.update_of_ne hyx, Function.update_of_ne (hxs y hy hyx), this]

/-- The condition survives putting programs one after the other. -/
theorem agree_runs (dead : List String) (progs : List (List (Op V))) (h : Heap V) (e : String → V)
    (hd : ∀ p ∈ progs, disciplined dead [] p = true) (a : Agree dead [] h e) :
    Agree dead [] (progs.foldl Heap.run h) (progs.foldl valueRun e) := by
  induction progs generalizing h e with
  | nil => exact a
  | cons p ps ih =>
    exact ih _ _ (fun q hq => hd q (List.mem_cons_of_mem _ hq)) (agree_run dead p [] h e (hd p (List.mem_cons_self ..)) a)

/-- The programs of one iteration that the kernel can run (`kernel.py:316-447`), with arbitrary contents: the
de-excitation amplitudes are set, one of the four residual drivers runs, DIIS may follow. -/
inductive Iteration : List (Op V) → Prop
  | si (qf : Bool) (F : String → List V → V) : Iteration (setL2 ++ residSi qf F)
  | so (lccd xccd : Bool) (orders : List ℕ) (F : String → List V → V) : Iteration (setL2 ++ residSo lccd xccd orders F)
  | ucc4 (F : String → List V → V) : Iteration (setL2 ++ residUcc4 F)
  | full (off qf : Bool) (F : String → List V → V) : Iteration (setL2 ++ residFull off qf F)
  | diis (names : List String) (h : names ∈ [t2names, ["t1aa", "t2aa", "t3aa"], t2names ++ t4names]) (warm : Bool)
      (F : String → List V → V) : Iteration (diis names warm F)

theorem disciplined_append (dead own : List String) (p q : List (Op V)) (hp : disciplined dead own p = true)
    (hq : ∀ own', disciplined dead own' q = true) : disciplined dead own (p ++ q) = true := by
  induction p generalizing own with
  | nil => exact hq own
  | cons o p ih =>
    cases o <;> simp only [List.cons_append, disciplined, Bool.and_eq_true] at hp ⊢
    · exact ⟨hp.1, ih _ hp.2⟩
    · exact ⟨hp.1, ih _ hp.2⟩
    · exact ⟨hp.1, ih _ hp.2⟩

/-- The additions of an extended CCD method, for every list of orders. -/
theorem disciplined_orders (F : String → List V → V) (orders : List ℕ) (q : List (Op V)) (own : List String)
    (ho : "resid_aaaa" ∈ own)
    (hq : ∀ own', "resid_aaaa" ∈ own' → disciplined ["resid_aaaaBKUP"] own' q = true) :
    disciplined ["resid_aaaaBKUP"] own ((orders.flatMap fun k =>
      [.calc "t_base" ["t2aa"] (F s!"base{k}"), .upd "resid_aaaa" ["resid_aaaa", "t_base"] (F s!"aaaa+={k}")]) ++ q) = true := by
  induction orders generalizing own with
  | nil => exact hq own ho
  | cons k orders ih =>
    simp only [List.flatMap_cons, List.cons_append, List.nil_append, disciplined]
    have := ih ("t_base" :: own) (List.mem_cons_of_mem _ ho)
    simp only [this]
    simp [ho]

theorem iteration_disciplined (p : List (Op V)) (h : Iteration p) : disciplined ["resid_aaaaBKUP"] [] p = true := by
  cases h with
  | si qf F => cases qf <;> rfl
  | so lccd xccd orders F =>
    cases xccd
    · cases lccd <;> rfl
    · cases lccd
      · simp only [setL2, residSo, if_true, if_false, List.cons_append, List.nil_append, List.append_nil, disciplined,
          Bool.false_eq_true]
        rw [disciplined_orders]
        · rfl
        · decide
        · intro own' ho; simp [disciplined]
      · simp only [setL2, residSo, if_true, List.cons_append, List.nil_append, disciplined]
        rw [disciplined_orders]
        · rfl
        · decide
        · intro own' ho; simp [disciplined]
  | ucc4 F => rfl
  | full off qf F => cases off <;> cases qf <;> rfl
  | diis names h warm F =>
    simp only [List.mem_cons, List.not_mem_nil, or_false] at h
    rcases h with rfl | rfl | rfl <;> cases warm <;> rfl

/-- **C58** The aliased initial arrays are harmless: start with any assignment of names to arrays, for instance with
all amplitude and residual names referring to one zero array, and run any sequence of iterations; every name then
refers to the array it would hold if all names had had separate arrays from the beginning. (The name
`resid_aaaaBKUP` of `t2residEqnsSlow.py`, which no code reads, is excepted.) -/
theorem C58_aliasing (h : Heap V) (hl : ∀ x, h.env x < h.next) (progs : List (List (Op V)))
    (hp : ∀ p ∈ progs, Iteration p) (x : String) (hx : x ≠ "resid_aaaaBKUP") :
    (progs.foldl Heap.run h).val x = progs.foldl valueRun h.val x := by
  have a : Agree ["resid_aaaaBKUP"] [] h h.val := ⟨fun _ _ => rfl, fun x _ => hl x, by simp⟩
  exact (agree_runs _ progs h h.val (fun p hq => iteration_disciplined p (hp p hq)) a).val x (by simpa using hx)

/-- The start of the kernel: all names refer to the same array. One iteration with different contents for the three
spin blocks leaves three different arrays. -/
example : let h : Heap ℕ := ⟨fun _ => 0, 1, fun _ => 0⟩
    let F : String → List ℕ → ℕ := fun s l => s.length + l.sum
    let h' := h.run (setL2 ++ residSi true fun s l => F s l + (if s = "bbbb" then 10 else 0))
    h'.val "t2aa" ≠ h'.val "t2bb" ∧ h'.val "l2aa" = 0 := by decide

/-- The one alias whose contents do change: after `resid_aaaaBKUP = resid_aaaa` and `resid_aaaa += ...` the backup has
changed too, so the exception in `C58_aliasing` is needed. -/
theorem C58_backup_is_no_copy : ∃ (F : String → List ℕ → ℕ) (h : Heap ℕ), (∀ x, h.env x < h.next) ∧
    (h.run (residSo false true [5] F)).val "resid_aaaaBKUP" ≠ valueRun h.val (residSo false true [5] F) "resid_aaaaBKUP" :=
  ⟨fun _ l => l.sum + 1, ⟨fun _ => 0, 1, fun _ => 0⟩, fun _ => Nat.zero_lt_one, by decide +kernel⟩

end Verif.Props
