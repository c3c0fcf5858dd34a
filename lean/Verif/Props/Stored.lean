import Verif.Model.Stored
import Mathlib.Tactic.Common

/-! Properties C21, C22, C53: `StoredInfo` and the amplitude/residual setters. -/

namespace Verif.Props
open Verif.Stored Verif.Py
variable {V : Type}

/-- Spec for C21: the fields of a fresh `StoredInfo` are all empty dictionaries. -/
def Fresh (s : St V) : Prop := ∀ f, s.dict f = some []

/-- **C21** is violated: after one calculation that follows the perturbative-correction path of `ccd_main`
(which never calls `set_denoms` and updates the denominators in place), the next `StoredInfo()` starts
with the old denominators. -/
theorem C21_violated (v : V) :
    let s := (imported (V := V)).run [.new, .set .occ [], .set .occSlice [], .set .ccRun [],
      .set .ints [], .update .denom "D3aa" v, .new]
    s.getStrict .denom "D3aa" = .ok v ∧ ¬ Fresh s := by
  refine ⟨rfl, fun h => ?_⟩
  have := h .denom
  simp [St.run, St.step, St.dict, imported, Field.default, Dict.set, List.modify] at this

/-- In a program, every in-place update is preceded by a setter call for the same field of the same
`StoredInfo`. `own f` says that this has happened for `f`. -/
def Disciplined (own : Field → Bool) : List (Op V) → Prop
  | [] => True
  | .new :: ops => Disciplined (fun _ => false) ops
  | .set f _ :: ops => Disciplined (fun g => if g = f then true else own g) ops
  | .update f _ _ :: ops => own f = true ∧ Disciplined own ops

theorem disciplined_run (ops : List (Op V)) (own : Field → Bool) (s : St V)
    (hd : Disciplined own ops) (h5 : 5 ≤ s.heap.length)
    (hE : ∀ i, i < 5 → s.heap[i]? = some [])
    (ho : ∀ f, own f = true → 5 ≤ s.cur f) :
    5 ≤ (s.run ops).heap.length ∧ ∀ i, i < 5 → (s.run ops).heap[i]? = some [] := by
  induction ops generalizing own s with
  | nil => exact ⟨h5, hE⟩
  | cons op ops ih =>
    cases op with
    | new =>
      exact ih (fun _ => false) _ hd h5 hE (by simp)
    | set f d =>
      refine ih _ _ hd (by simp [St.step]; omega) ?_ ?_
      · intro i hi
        simp only [St.step]
        rw [List.getElem?_append_left (by omega)]; exact hE i hi
      · intro g hg
        simp only [St.step]
        by_cases hgf : g = f
        · simp [hgf, h5]
        · simp only [hgf, if_false] at hg ⊢; exact ho g hg
    | update f k v =>
      obtain ⟨h1, h2⟩ := hd
      have hc := ho f h1
      refine ih own _ h2 (by simp [St.step, h5]) ?_ ho
      intro i hi
      simp only [St.step]
      rw [List.getElem?_modify_ne _ _ (by omega)]; exact hE i hi

/-- **C21** For programs that call the setter of a field before updating it in place: after any history, a
new `StoredInfo` is empty. Partial: `ccd_main` itself does not keep to this. -/
theorem C21_fresh_partial (ops : List (Op V)) (h : Disciplined (fun _ => false) ops) :
    Fresh ((imported (V := V)).run (ops ++ [.new])) := by
  have key := disciplined_run ops (fun _ => false) (imported (V := V)) h (by simp [imported])
    (by
      intro i hi
      have : i = 0 ∨ i = 1 ∨ i = 2 ∨ i = 3 ∨ i = 4 := by omega
      rcases this with rfl | rfl | rfl | rfl | rfl <;> rfl) (by simp)
  intro f
  have hr : (imported (V := V)).run (ops ++ [.new]) =
      ((imported (V := V)).run ops).step .new := by simp [St.run]
  rw [hr]
  simp only [St.dict, St.step]
  apply key.2
  cases f <;> simp [Field.default]

-- the ordinary path (`set_denoms` first) is disciplined
example (v : ℕ) : Disciplined (fun _ => false)
    [.new, .set .denom [("D2aa", 1)], .update .denom "D3aa" v, .new, .set .denom []] := by
  simp [Disciplined]

/-! ## C22 -/

/-- Reference specification of one field of the current object: what the program has stored in it since
its setter was last called. `none` while the setter has not been called since the last `new`. -/
def stored (f : Field) : List (Op V) → Option (Dict V)
  | [] => none
  | op :: earlier =>                    -- latest operation first
    match op with
    | .new => none
    | .set g d => if g = f then some d else stored f earlier
    | .update g k v =>
      if g = f then (stored f earlier).map (fun d => Dict.set d k v) else stored f earlier

theorem cur_inv (ops : List (Op V)) (s : St V) (h5 : 5 ≤ s.heap.length)
    (hlt : ∀ f, s.cur f < s.heap.length) (hinj : ∀ f g, s.cur f = s.cur g → f = g) :
    5 ≤ (s.run ops).heap.length ∧ (∀ f, (s.run ops).cur f < (s.run ops).heap.length) ∧
      ∀ f g, (s.run ops).cur f = (s.run ops).cur g → f = g := by
  induction ops generalizing s with
  | nil => exact ⟨h5, hlt, hinj⟩
  | cons op ops ih =>
    cases op with
    | new =>
      refine ih _ h5 ?_ ?_
      · intro f; simp only [St.step]; cases f <;> simp [Field.default] <;> omega
      · intro f g; simp only [St.step]; cases f <;> cases g <;> simp [Field.default]
    | set f d =>
      refine ih _ (by simp [St.step]; omega) ?_ ?_
      · intro g; simp only [St.step, List.length_append, List.length_singleton]
        by_cases hg : g = f
        · simp [hg]
        · have := hlt g; simp [hg]; omega
      · intro g g'
        simp only [St.step]
        by_cases hg : g = f <;> by_cases hg' : g' = f
        · intro _; rw [hg, hg']
        · simp only [hg, hg', if_true, if_false]
          intro h; have := hlt g'; omega
        · simp only [hg, hg', if_true, if_false]
          intro h; have := hlt g; omega
        · simp only [hg, hg', if_false]; exact hinj g g'
    | update f k v => exact ih _ (by simp [St.step, h5]) (by simpa [St.step] using hlt) hinj

/-- The heap implements the reference specification. -/
theorem stored_refines (ops : List (Op V)) (f : Field) (d : Dict V)
    (h : stored f ops.reverse = some d) : ((imported (V := V)).run ops).dict f = some d := by
  have hinit : 5 ≤ (imported (V := V)).heap.length ∧
      (∀ f, (imported (V := V)).cur f < (imported (V := V)).heap.length) ∧
      ∀ f g, (imported (V := V)).cur f = (imported (V := V)).cur g → f = g := by
    refine ⟨by simp [imported], ?_, ?_⟩
    · intro f; cases f <;> simp [imported, Field.default]
    · intro f g; cases f <;> cases g <;> simp [imported, Field.default]
  obtain ⟨rops, hrev⟩ : ∃ r, ops = List.reverse r := ⟨ops.reverse, by simp⟩
  subst hrev
  rw [List.reverse_reverse] at h
  induction rops generalizing d with
  | nil => cases h
  | cons op earlier ih =>
    have hrun : (imported (V := V)).run (op :: earlier).reverse =
        ((imported (V := V)).run earlier.reverse).step op := by simp [St.run]
    obtain ⟨h5, hlt, hinj⟩ := cur_inv earlier.reverse (imported (V := V)) hinit.1 hinit.2.1 hinit.2.2
    rw [hrun]
    cases op with
    | new => cases h
    | set g e =>
      simp only [stored] at h
      simp only [St.dict, St.step]
      by_cases hg : g = f
      · subst hg; simp only [if_true, Option.some.injEq] at h ⊢
        rw [List.getElem?_append_right (by omega)]; simp [h]
      · rw [if_neg hg] at h
        have hg' : ¬ f = g := fun e => hg e.symm
        simp only [hg', if_false]
        rw [List.getElem?_append_left (hlt f)]
        exact ih _ h
    | update g k v =>
      simp only [stored] at h
      simp only [St.dict, St.step]
      by_cases hg : g = f
      · subst hg
        simp only [if_true, Option.map_eq_some_iff] at h
        obtain ⟨d', h1, h2⟩ := h
        have := ih _ h1
        simp only [St.dict] at this
        rw [List.getElem?_modify_eq, this]; simp [h2]
      · rw [if_neg hg] at h
        rw [List.getElem?_modify_ne]
        · exact ih _ h
        · intro e; exact hg (hinj _ _ e)

/-- **C22** After any history of operations in which the setter of field `f` has been called on the
current object: a getter with a key returns the value most recently stored under it, a missing key is a
`KeyError`, and for occupation info it is `None`. -/
theorem C22_lookup (ops : List (Op V)) (f : Field) (d : Dict V) (h : stored f ops.reverse = some d)
    (k : String) :
    (∀ v, d.get? k = some v → ((imported (V := V)).run ops).getStrict f k = .ok v) ∧
    (d.get? k = none → ((imported (V := V)).run ops).getStrict f k = .error .keyError) ∧
    (f = .occ → ((imported (V := V)).run ops).getOcc k = d.get? k) := by
  have H := stored_refines ops f d h
  refine ⟨fun v hv => ?_, fun hv => ?_, ?_⟩
  · simp [St.getStrict, H, hv]
  · simp [St.getStrict, H, hv]
  · rintro rfl; simp [St.getOcc, H]

/-- **C22** (most recent value) Storing under a key and reading that key gives the stored value; every
other key of every field is unaffected. -/
theorem C22_most_recent (ops : List (Op V)) (f g : Field) (d' : Dict V)
    (h' : stored g ops.reverse = some d')
    (k k' : String) (v : V) :
    ((imported (V := V)).run (ops ++ [.update f k v])).getStrict g k' =
      if g = f ∧ k' = k then .ok v else ((imported (V := V)).run ops).getStrict g k' := by
  have H' := stored_refines ops g d' h'
  by_cases hg : g = f
  · subst hg
    have H := stored_refines (ops ++ [.update g k v]) g (Dict.set d' k v) (by simp [stored, h'])
    simp only [St.getStrict, H, H', Dict.get?_set, true_and]
    by_cases hk : k' = k <;> simp [hk]
  · have hgf : ¬ f = g := fun e => hg e.symm
    have H := stored_refines (ops ++ [.update f k v]) g d' (by simp [stored, h', hgf])
    simp [St.getStrict, H, H', hg]

example : ((imported (V := ℕ)).run [.new, .set .denom [("D2aa", 1)], .set .occ [("nocc_aa", 5)],
    .update .denom "D2aa" 7]).getStrict .denom "D2aa" = .ok 7 ∧
    ((imported (V := ℕ)).run [.new, .set .occ [("nocc_aa", 5)]]).getOcc "nocc_bb" = none := by
  decide

/-! ## C53 -/

/-- **C53** A setter with a label changes that entry and no other; without a label it replaces the whole
dictionary. -/
theorem C53_setters (cur d : Dict V) (label k : String) (v : V) :
    Dict.get? (setAmps cur (.inr (label, v))) label = some v ∧
    (k ≠ label → Dict.get? (setAmps cur (.inr (label, v))) k = Dict.get? cur k) ∧
    (∀ k, Dict.get? (setAmps cur (.inl d)) k = Dict.get? d k) := by
  refine ⟨by simp [setAmps, Dict.get?_set], fun h => by simp [setAmps, Dict.get?_set, h], fun _ => rfl⟩

/-- **C53** (histories) After any sequence of setter calls an entry holds the value of the last call that
concerned it. -/
theorem C53_last_call_wins (cur : Dict V) (pre post : List ((Dict V) ⊕ (String × V))) (label : String)
    (v : V) (hpost : ∀ c ∈ post, ∃ k w, c = .inr (k, w) ∧ k ≠ label) :
    Dict.get? ((pre ++ .inr (label, v) :: post).foldl setAmps cur) label = some v := by
  rw [List.foldl_append, List.foldl_cons]
  have base : Dict.get? (setAmps (pre.foldl setAmps cur) (.inr (label, v))) label = some v := by
    simp [setAmps, Dict.get?_set]
  revert base
  generalize setAmps (pre.foldl setAmps cur) (.inr (label, v)) = x
  intro base
  induction post generalizing x with
  | nil => exact base
  | cons c cs ih =>
    rw [List.foldl_cons]
    refine ih (fun c hc => hpost c (List.mem_cons_of_mem _ hc)) _ ?_
    obtain ⟨k, w, rfl, hk⟩ := hpost c (List.mem_cons_self ..)
    have hk' : ¬ label = k := fun e => hk e.symm
    simp [setAmps, Dict.get?_set, hk', base]

example : Dict.get? ([Sum.inl [("t2aa", 1), ("t2bb", 2)], .inr ("t2aa", 5), .inr ("t2bb", 6)].foldl
    setAmps ([] : Dict ℕ)) "t2aa" = some 5 := by decide

end Verif.Props
