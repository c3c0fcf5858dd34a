import Verif.Ein.Anti
import Verif.Lemmas.Antisym

/-!
# Antisymmetrisers on terms that are antisymmetric already

A term such as `f t4` is antisymmetric in most of its indices before it is sent through an antisymmetriser, so the
576 transposes are a multiple of a few different ones. `Prog.thin` keeps one representative of each kind.
-/

set_option maxRecDepth 100000

namespace Verif.Ein

/-- The permutations of the occupied and of the virtual axes, split into representatives `r…` and the permutations `h…`
under which the terms number `idx` are antisymmetric. -/
structure Split where
  idx : List Nat
  ro : List (ℤ × List Nat)
  ho : List (ℤ × List Nat)
  rv : List (ℤ × List Nat)
  hv : List (ℤ × List Nat)

/-- First the transpose `r`, then the transpose `h`. -/
def compose (R H : List (ℤ × List Nat)) : List (ℤ × List Nat) :=
  R.flatMap fun r => H.map fun h => (r.1 * h.1, pick 0 r.2 h.2)

/-- The blocks with the given numbers. -/
def Prog.sel (idx : List Nat) (P : Prog) : Prog := idx.filterMap fun k => P[k]?

/-- The representatives. -/
def Split.reps (s : Split) : List (ℤ × List Nat) := compose s.rv s.ro

/-- The antisymmetrised program with one representative for equal transposes. -/
def Prog.thin (ss : List Split) (P : Prog) : Prog :=
  ss.flatMap fun s => ((P.sel s.idx).through s.reps).scale ((s.ho.length * s.hv.length : Nat) : ℚ)

/-- Rows of permutations only. -/
def rowsOk (n : Nat) (tab : List (ℤ × List Nat)) : Bool := tab.all fun q => isPerm n q.2

/-- The tables of a split belong to the permutations `O` and `V`. -/
def Split.ok (n : Nat) (O V : List (ℤ × List Nat)) (s : Split) : Bool :=
  rowsOk n s.ro && rowsOk n s.ho && rowsOk n s.rv && rowsOk n s.hv &&
  decide (sortRows (compose s.ro s.ho) = sortRows O) && decide (sortRows (compose s.rv s.hv) = sortRows V) &&
  O.all fun o => s.rv.all fun r => decide (pick 0 o.2 r.2 = pick 0 r.2 o.2)

/-- The terms of each split are antisymmetric under its `h…` permutations, with certificates for the normal form. -/
noncomputable def antiOk (kinds : Nat → Kind) (outs : List Var) (den : Nat) (P : Prog) : List Split → List (List Nat × List Nat) → Bool
  | [], _ => true
  | _ :: _, [] => false
  | s :: ss, c :: cs =>
    isZero kinds outs den ((P.sel s.idx).through s.ho ++ ((P.sel s.idx).scale s.ho.length).scale (-1)) c.1 &&
    isZero kinds outs den ((P.sel s.idx).through s.hv ++ ((P.sel s.idx).scale s.hv.length).scale (-1)) c.2 &&
    antiOk kinds outs den P ss cs

variable {I K : Type} [Field K] [Inhabited I]

theorem pick_pick {α : Type} (d : α) (n : Nat) (r h : List Nat) (hr : isPerm n r = true) (hh : isPerm n h = true)
    (z : List α) : pick d (pick 0 r h) z = pick d r (pick d h z) := by
  unfold pick
  rw [List.map_map]
  refine List.map_congr_left fun k hk => ?_
  have hk : k < h.length := by rw [(isPerm_nodup n h hh).1]; exact isPerm_lt n r hr k hk
  simp only [Function.comp]
  rw [List.getD_eq_getElem h 0 hk, List.getD_eq_getElem (h.map _) d (by simpa using hk), List.getElem_map]

theorem isPerm_pick (n : Nat) (r h : List Nat) (hr : isPerm n r = true) (hh : isPerm n h = true) :
    isPerm n (pick 0 r h) = true := by
  have h1 := isPerm_nodup n r hr
  have h2 := isPerm_nodup n h hh
  simp only [isPerm, Bool.and_eq_true, Nat.beq_eq, List.all_eq_true, List.mem_range, List.elem_eq_mem, decide_eq_true_eq]
  exact ⟨by simp [pick, h1.1], fun k hk => (mem_pick n r hr h h2.1 k).2 (h2.2.2 k hk)⟩

/-- The transpose of a transpose. -/
theorem unpick_unpick {α : Type} (d : α) (n : Nat) (r h : List Nat) (hr : isPerm n r = true) (hh : isPerm n h = true)
    (x : List α) (hx : x.length = n) : unpick d h (unpick d r x) = unpick d (pick 0 r h) x := by
  have hc := isPerm_pick n r h hr hh
  have e : pick d (pick 0 r h) (unpick d h (unpick d r x)) = x := by
    rw [pick_pick d n r h hr hh, pick_unpick d n h hh _ (by rw [length_unpick]; exact (isPerm_nodup n r hr).1),
      pick_unpick d n r hr x hx]
  have := unpick_pick d n (pick 0 r h) hc (unpick d h (unpick d r x))
    (by rw [length_unpick]; exact (isPerm_nodup n h hh).1)
  rw [e] at this
  exact this.symm

theorem rowsOk_mem {n : Nat} {tab : List (ℤ × List Nat)} (h : rowsOk n tab = true) {q : ℤ × List Nat} (hq : q ∈ tab) :
    isPerm n q.2 = true := by
  simp only [rowsOk, List.all_eq_true] at h
  exact h q hq

theorem rowsOk_compose {n : Nat} {R H : List (ℤ × List Nat)} (hR : rowsOk n R = true) (hH : rowsOk n H = true) :
    rowsOk n (compose R H) = true := by
  simp only [rowsOk, compose, List.all_eq_true, List.mem_flatMap, List.mem_map]
  rintro q ⟨r, hr, h, hh, rfl⟩
  exact isPerm_pick n _ _ (rowsOk_mem hR hr) (rowsOk_mem hH hh)

theorem antisym_congr {n : Nat} {tab : List (ℤ × List Nat)} (h : rowsOk n tab = true) (f g : List I → K)
    (hfg : ∀ y : List I, y.length = n → f y = g y) (x : List I) : antisym tab f x = antisym tab g x := by
  unfold antisym
  congr 1
  refine List.map_congr_left fun q hq => ?_
  rw [hfg _ (by rw [length_unpick]; exact (isPerm_nodup n _ (rowsOk_mem h hq)).1)]

theorem antisym_smul (tab : List (ℤ × List Nat)) (c : K) (f : List I → K) (x : List I) :
    antisym tab (fun y => c * f y) x = c * antisym tab f x := by
  unfold antisym
  rw [← List.sum_map_mul_left]
  congr 1
  refine List.map_congr_left fun q _ => ?_
  ring

theorem antisym_add (tab : List (ℤ × List Nat)) (f g : List I → K) (x : List I) :
    antisym tab (fun y => f y + g y) x = antisym tab f x + antisym tab g x := by
  unfold antisym
  rw [← List.sum_map_add]
  congr 1
  refine List.map_congr_left fun q _ => ?_
  ring

theorem antisym_zero (tab : List (ℤ × List Nat)) (x : List I) : antisym tab (fun _ => (0 : K)) x = 0 := by
  simp [antisym]

theorem antisym_compose {n : Nat} {R H : List (ℤ × List Nat)} (hR : rowsOk n R = true) (hH : rowsOk n H = true)
    (f : List I → K) (x : List I) (hx : x.length = n) :
    antisym (compose R H) f x = antisym R (fun y => antisym H f y) x := by
  unfold antisym compose
  rw [List.flatMap_def, List.map_flatten, List.sum_flatten, List.map_map, List.map_map]
  congr 1
  refine List.map_congr_left fun r hr => ?_
  simp only [Function.comp]
  rw [List.map_map, ← List.sum_map_mul_left]
  congr 1
  refine List.map_congr_left fun h hh => ?_
  simp only [Function.comp]
  rw [unpick_unpick default n r.2 h.2 (rowsOk_mem hR hr) (rowsOk_mem hH hh) x hx]
  push_cast
  ring

/-- Two antisymmetrisers whose rows commute can be exchanged. -/
theorem antisym_comm {n : Nat} {R H : List (ℤ × List Nat)} (hR : rowsOk n R = true) (hH : rowsOk n H = true)
    (hc : (R.all fun o => H.all fun r => decide (pick 0 o.2 r.2 = pick 0 r.2 o.2)) = true) (f : List I → K) (x : List I)
    (hx : x.length = n) : antisym R (fun y => antisym H f y) x = antisym H (fun y => antisym R f y) x := by
  simp only [List.all_eq_true, decide_eq_true_eq] at hc
  unfold antisym
  have e : ∀ r ∈ R, (r.1 : K) * (H.map fun h => (h.1 : K) * f (unpick default h.2 (unpick default r.2 x))).sum =
      (H.map fun h => (h.1 : K) * ((r.1 : K) * f (unpick default r.2 (unpick default h.2 x)))).sum := by
    intro r hr
    rw [← List.sum_map_mul_left]
    congr 1
    refine List.map_congr_left fun h hh => ?_
    rw [unpick_unpick default n r.2 h.2 (rowsOk_mem hR hr) (rowsOk_mem hH hh) x hx, hc r hr h hh,
      ← unpick_unpick default n h.2 r.2 (rowsOk_mem hH hh) (rowsOk_mem hR hr) x hx]
    ring
  rw [List.map_congr_left e]
  clear e hc hR
  induction R with
  | nil => simp
  | cons r R ih =>
    simp only [List.map_cons, List.sum_cons]
    rw [ih, ← List.sum_map_add]
    congr 1
    refine List.map_congr_left fun h _ => ?_
    ring

/-- An array that is antisymmetric under the `h…` permutations: all permutations give a multiple of the
representatives. -/
theorem Split.sum {n : Nat} {O V : List (ℤ × List Nat)} (hO : rowsOk n O = true) (hV : rowsOk n V = true) (s : Split)
    (hs : s.ok n O V = true) (f : List I → K)
    (h1 : ∀ y : List I, y.length = n → antisym s.ho f y = (s.ho.length : K) * f y)
    (h2 : ∀ y : List I, y.length = n → antisym s.hv f y = (s.hv.length : K) * f y) (x : List I) (hx : x.length = n) :
    antisym (compose O V) f x = ((s.ho.length * s.hv.length : Nat) : K) * antisym s.reps f x := by
  simp only [Split.ok, Bool.and_eq_true, decide_eq_true_eq] at hs
  obtain ⟨⟨⟨⟨⟨⟨a1, a2⟩, a3⟩, a4⟩, a5⟩, a6⟩, a7⟩ := hs
  have eV : ∀ y : List I, y.length = n → antisym V f y = (s.hv.length : K) * antisym s.rv f y := by
    intro y hy
    rw [← antisym_perm (perm_of_sortRows a6) f y, antisym_compose a3 a4 f y hy,
      antisym_congr a3 _ (fun y => (s.hv.length : K) * f y) h2, antisym_smul]
  have eO : ∀ y : List I, y.length = n → antisym O f y = (s.ho.length : K) * antisym s.ro f y := by
    intro y hy
    rw [← antisym_perm (perm_of_sortRows a5) f y, antisym_compose a1 a2 f y hy,
      antisym_congr a1 _ (fun y => (s.ho.length : K) * f y) h1, antisym_smul]
  rw [antisym_compose hO hV f x hx, antisym_congr hO _ _ eV, antisym_smul, antisym_comm hO a3 a7 f x hx,
    antisym_congr a3 _ _ eO, antisym_smul, Split.reps, antisym_compose a3 a1 f x hx]
  push_cast
  ring

variable (D : Nat → Finset I) (T : Nat → List I → K)

theorem Prog.eval_perm {P Q : Prog} (h : P.Perm Q) (xs : List I) : P.eval D T xs = Q.eval D T xs := by
  unfold Prog.eval
  exact (h.map _).sum_eq

theorem Prog.sel_range (P : Prog) : P.sel (List.range P.length) = P := by
  unfold Prog.sel
  induction P with
  | nil => rfl
  | cons b P ih =>
    rw [List.length_cons, List.range_succ_eq_map, List.filterMap_cons_some (b := b) (by simp), List.filterMap_map]
    congr 1

theorem Prog.eval_sel (ss : List Split) (P : Prog) (hi : (ss.flatMap Split.idx).isPerm (List.range P.length) = true)
    (xs : List I) : P.eval D T xs = (ss.map fun s => (P.sel s.idx).eval D T xs).sum := by
  have h := List.isPerm_iff.1 hi
  conv_lhs => rw [← P.sel_range]
  rw [Prog.eval_perm D T (P := P.sel (List.range P.length)) (Q := P.sel (ss.flatMap Split.idx)) (h.symm.filterMap _)]
  clear h hi
  induction ss with
  | nil => rfl
  | cons s ss ih =>
    rw [List.map_cons, List.sum_cons, ← ih, ← Prog.eval_append]
    congr 1
    simp [Prog.sel, List.filterMap_append]

theorem Prog.wf_sel {n : Nat} {P : Prog} (h : P.wf n = true) (idx : List Nat) : (P.sel idx).wf n = true := by
  simp only [Prog.wf_eq, List.all_eq_true] at h ⊢
  intro b hb
  obtain ⟨k, _, hk⟩ := List.mem_filterMap.1 hb
  exact h b (List.mem_of_getElem? hk)

/-- The thinned program gives the antisymmetrised array. -/
theorem Prog.eval_thin [CharZero K] {n : Nat} {tab O V : List (ℤ × List Nat)} (ht : tab.Perm (compose O V))
    (hO : rowsOk n O = true) (hV : rowsOk n V = true) (ss : List Split) (hs : ss.all (Split.ok n O V) = true) (P : Prog)
    (hP : P.wf n = true) (hi : (ss.flatMap Split.idx).isPerm (List.range P.length) = true)
    (ha : ∀ s ∈ ss, ∀ y : List I, y.length = n →
      ((P.sel s.idx).through s.ho).eval D T y = ((P.sel s.idx).scale s.ho.length).eval D T y ∧
      ((P.sel s.idx).through s.hv).eval D T y = ((P.sel s.idx).scale s.hv.length).eval D T y)
    (xs : List I) (hx : xs.length = n) : (P.through tab).eval D T xs = (P.thin ss).eval D T xs := by
  have hOV := rowsOk_compose hO hV
  have htab : rowsOk n tab = true := by
    simp only [rowsOk, List.all_eq_true] at hOV ⊢
    exact fun q hq => hOV q (ht.mem_iff.1 hq)
  rw [Prog.eval_through D T n tab htab P hP xs hx, antisym_perm ht,
    antisym_congr hOV _ _ fun y _ => Prog.eval_sel D T ss P hi y]
  clear hi
  simp only [List.all_eq_true] at hs
  induction ss with
  | nil =>
    simp only [List.map_nil, List.sum_nil]
    exact antisym_zero _ xs
  | cons s ss ih =>
    simp only [List.map_cons, List.sum_cons]
    rw [antisym_add, ih (fun s' h' => ha s' (List.mem_cons_of_mem _ h')) (fun s' h' => hs s' (List.mem_cons_of_mem _ h'))]
    have hok := hs s List.mem_cons_self
    have hw := P.wf_sel hP s.idx
    have hk := hok
    simp only [Split.ok, Bool.and_eq_true, decide_eq_true_eq] at hk
    obtain ⟨⟨⟨⟨⟨⟨a1, a2⟩, a3⟩, a4⟩, a5⟩, a6⟩, a7⟩ := hk
    rw [Split.sum hO hV s hok _ (fun y hy => ?_) (fun y hy => ?_) xs hx]
    · have : Prog.thin (s :: ss) P =
          ((P.sel s.idx).through s.reps).scale ((s.ho.length * s.hv.length : Nat) : ℚ) ++ Prog.thin ss P := rfl
      rw [this, Prog.eval_append, Prog.eval_scale,
        Prog.eval_through D T n s.reps (rowsOk_compose a3 a1) _ hw xs hx]
      push_cast
      rfl
    · have := (ha s List.mem_cons_self y hy).1
      rw [Prog.eval_through D T n s.ho a2 _ hw y hy, Prog.eval_scale] at this
      rw [this]
      push_cast
      rfl
    · have := (ha s List.mem_cons_self y hy).2
      rw [Prog.eval_through D T n s.hv a4 _ hw y hy, Prog.eval_scale] at this
      rw [this]
      push_cast
      rfl

theorem antiOk_eval [CharZero K] (kinds : Nat → Kind) (hk : ∀ t, (kinds t).Holds (T t)) (outs : List Var) (den : Nat)
    (P : Prog) : ∀ (ss : List Split) (cs : List (List Nat × List Nat)), antiOk kinds outs den P ss cs = true →
    ∀ s ∈ ss, ∀ y : List I, y.length = outs.length →
      ((P.sel s.idx).through s.ho).eval D T y = ((P.sel s.idx).scale s.ho.length).eval D T y ∧
      ((P.sel s.idx).through s.hv).eval D T y = ((P.sel s.idx).scale s.hv.length).eval D T y
  | [], _, _, _, h => absurd h List.not_mem_nil
  | _ :: _, [], h, _, _ => by simp [antiOk] at h
  | s :: ss, c :: cs, h, s', hs' => by
    simp only [antiOk, Bool.and_eq_true] at h
    rcases List.mem_cons.1 hs' with rfl | h'
    · exact fun y hy => ⟨eval_eq_of_isZero D T kinds hk outs den _ _ _ h.1.1 y hy,
        eval_eq_of_isZero D T kinds hk outs den _ _ _ h.1.2 y hy⟩
    · exact antiOk_eval kinds hk outs den P ss cs h.2 s' h'

end Verif.Ein
