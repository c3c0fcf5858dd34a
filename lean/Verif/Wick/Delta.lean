import Verif.Wick.Cap
import Verif.Wick.Box
import Verif.Props.Antisym
import Mathlib.Tactic.FinCases

/-!
# Single matrix elements from contracted ones

A certificate about `⟨Φ| L X |Φ⟩` with an antisymmetric de-excitation amplitude `L` settles every matrix element
`⟨Φ_ij..^ab..| X |Φ⟩`: take for `L` the antisymmetrised delta at `i, j, .., a, b, ..`. The contracted matrix element has
far fewer Wick terms.
-/

namespace Verif.Wick

open Verif.Ein Verif.Props Equiv

section
variable {I K : Type} [DecidableEq I] [Field K]

/-- The antisymmetrised delta at `o`, `v`. -/
def delta (m n : Nat) (o : Fin m → I) (v : Fin n → I) (l : List I) : K :=
  permutationSum m n (fun y => if l = y then 1 else 0) o v

omit [DecidableEq I] in
theorem halves_inj {m n : Nat} (o o' : Fin m → I) (v v' : Fin n → I) :
    List.ofFn o ++ List.ofFn v = List.ofFn o' ++ List.ofFn v' ↔ o = o' ∧ v = v' := by
  constructor
  · intro h
    have := List.append_inj h (by simp)
    exact ⟨List.ofFn_injective this.1, List.ofFn_injective this.2⟩
  · rintro ⟨rfl, rfl⟩; rfl

theorem delta_antisymmetric (m n : Nat) (o : Fin m → I) (v : Fin n → I) :
    Antisymmetric m n (delta m n o v : List I → K) := by
  refine antisymmetric_of_sum m n _ (fun y => if y = List.ofFn o ++ List.ofFn v then 1 else 0) fun o' v' => ?_
  unfold delta permutationSum
  refine Fintype.sum_equiv (Equiv.inv (Perm (Fin m))) _ _ fun σ => ?_
  refine Fintype.sum_equiv (Equiv.inv (Perm (Fin n))) _ _ fun τ => ?_
  simp only [Equiv.inv_apply, Perm.sign_inv]
  congr 1
  refine if_congr ?_ rfl rfl
  rw [halves_inj, halves_inj]
  have key : ∀ {k : Nat} (x y : Fin k → I) (π : Perm (Fin k)), x = y ∘ π ↔ x ∘ (π⁻¹ : Perm (Fin k)) = y := by
    intro k x y π
    constructor
    · rintro rfl; funext a; simp
    · rintro rfl; funext a; simp
  rw [key, key]

/-- Summing against the delta. -/
theorem boxSum_delta (D : Nat → Finset I) {m n : Nat} (ss : List Nat) (G : List I → K) (o : Fin m → I) (v : Fin n → I)
    (hb : ∀ (σ : Perm (Fin m)) (τ : Perm (Fin n)), InBox D ss (List.ofFn (o ∘ σ) ++ List.ofFn (v ∘ τ))) :
    boxSum D ss (fun l => delta m n o v l * G l) = permutationSum m n G o v := by
  unfold delta permutationSum
  simp only [Finset.sum_mul]
  rw [boxSum_sum]
  refine Finset.sum_congr rfl fun σ _ => ?_
  rw [boxSum_sum]
  refine Finset.sum_congr rfl fun τ _ => ?_
  have h := boxSum_single D ss _ (hb σ τ) fun l => ((Perm.sign σ : ℤ) : K) * ((Perm.sign τ : ℤ) : K) * G l
  rw [← h]
  refine boxSum_congr D ss _ _ fun l _ => ?_
  split_ifs <;> ring

omit [DecidableEq I] in
theorem inBox_halves (D : Nat → Finset I) {m n : Nat} (o : Fin m → I) (v : Fin n → I) (ho : ∀ k, o k ∈ D 0)
    (hv : ∀ k, v k ∈ D 1) (σ : Perm (Fin m)) (τ : Perm (Fin n)) :
    InBox D (List.replicate m 0 ++ List.replicate n 1) (List.ofFn (o ∘ σ) ++ List.ofFn (v ∘ τ)) := by
  have key : ∀ (k s : Nat) (x : Fin k → I), (∀ j, x j ∈ D s) → InBox D (List.replicate k s) (List.ofFn x) := by
    intro k s x hx
    unfold InBox
    rw [List.forall₂_iff_get]
    refine ⟨by simp, fun i h1 h2 => ?_⟩
    simpa using hx _
  exact List.rel_append (key m 0 _ fun j => ho _) (key n 1 _ fun j => hv _)

omit [DecidableEq I] in
theorem InBox.length {D : Nat → Finset I} {ss : List Nat} {l : List I} (h : InBox D ss l) : l.length = ss.length :=
  (List.Forall₂.length_eq h).symm

end

section
variable {I K : Type} [Field K] [Inhabited I]

omit [Inhabited I] in
/-- Antisymmetry under adjacent exchanges gives antisymmetry. -/
theorem antisymmetric_at6 (G : I → I → I → I → I → I → K)
    (h0 : ∀ p q r s u v, G p q r s u v = - G q p r s u v) (h1 : ∀ p q r s u v, G p q r s u v = - G p r q s u v)
    (h3 : ∀ p q r s u v, G p q r s u v = - G p q r u s v) (h4 : ∀ p q r s u v, G p q r s u v = - G p q r s v u) :
    Antisymmetric 3 3 (at6 G) := by
  have f02 : ∀ p q r s u v, G p q r s u v = - G r q p s u v := fun p q r s u v => by rw [h0, h1, h0]; ring
  have g02 : ∀ p q r s u v, G p q r s u v = - G p q r v u s := fun p q r s u v => by rw [h3, h4, h3]; ring
  constructor <;> intro i j o v hij <;> fin_cases i <;> fin_cases j <;> simp at hij <;>
    simp only [List.ofFn_succ, List.ofFn_zero, List.cons_append, List.nil_append, at6, Function.comp] <;>
    simp [Equiv.swap_apply_def] <;>
    first
    | exact h0 _ _ _ _ _ _
    | exact h1 _ _ _ _ _ _
    | exact f02 _ _ _ _ _ _
    | exact h3 _ _ _ _ _ _
    | exact h4 _ _ _ _ _ _
    | exact g02 _ _ _ _ _ _

omit [Inhabited I] in
theorem antisymmetric_at8 (G : I → I → I → I → I → I → I → I → K)
    (h0 : ∀ p q r s u v w z, G p q r s u v w z = - G q p r s u v w z)
    (h1 : ∀ p q r s u v w z, G p q r s u v w z = - G p r q s u v w z)
    (h2 : ∀ p q r s u v w z, G p q r s u v w z = - G p q s r u v w z)
    (h4 : ∀ p q r s u v w z, G p q r s u v w z = - G p q r s v u w z)
    (h5 : ∀ p q r s u v w z, G p q r s u v w z = - G p q r s u w v z)
    (h6 : ∀ p q r s u v w z, G p q r s u v w z = - G p q r s u v z w) :
    Antisymmetric 4 4 (at8 G) := by
  have f02 : ∀ p q r s u v w z, G p q r s u v w z = - G r q p s u v w z := fun p q r s u v w z => by rw [h0, h1, h0]; ring
  have f13 : ∀ p q r s u v w z, G p q r s u v w z = - G p s r q u v w z := fun p q r s u v w z => by rw [h1, h2, h1]; ring
  have f03 : ∀ p q r s u v w z, G p q r s u v w z = - G s q r p u v w z := fun p q r s u v w z => by rw [h0, f13, h0]; ring
  have g02 : ∀ p q r s u v w z, G p q r s u v w z = - G p q r s w v u z := fun p q r s u v w z => by rw [h4, h5, h4]; ring
  have g13 : ∀ p q r s u v w z, G p q r s u v w z = - G p q r s u z w v := fun p q r s u v w z => by rw [h5, h6, h5]; ring
  have g03 : ∀ p q r s u v w z, G p q r s u v w z = - G p q r s z v w u := fun p q r s u v w z => by rw [h4, g13, h4]; ring
  constructor <;> intro i j o v hij <;> fin_cases i <;> fin_cases j <;> simp at hij <;>
    simp only [List.ofFn_succ, List.ofFn_zero, List.cons_append, List.nil_append, at8, Function.comp] <;>
    simp [Equiv.swap_apply_def] <;>
    first
    | exact h0 _ _ _ _ _ _ _ _
    | exact h1 _ _ _ _ _ _ _ _
    | exact h2 _ _ _ _ _ _ _ _
    | exact f02 _ _ _ _ _ _ _ _
    | exact f13 _ _ _ _ _ _ _ _
    | exact f03 _ _ _ _ _ _ _ _
    | exact h4 _ _ _ _ _ _ _ _
    | exact h5 _ _ _ _ _ _ _ _
    | exact h6 _ _ _ _ _ _ _ _
    | exact g02 _ _ _ _ _ _ _ _
    | exact g13 _ _ _ _ _ _ _ _
    | exact g03 _ _ _ _ _ _ _ _
end

variable {I K A : Type} [DecidableEq I] [Field K] [Ring A] [Algebra K A] {D : Nat → Finset I} (F : Fermi I K A D)

theorem Fermi.dd' (p q : I) (x : A) : F.cd p * (F.cd q * x) = - (F.cd q * (F.cd p * x)) := by
  rw [← mul_assoc, F.dd, neg_mul, mul_assoc]

theorem Fermi.cc' (p q : I) (x : A) : F.c p * (F.c q * x) = - (F.c q * (F.c p * x)) := by
  rw [← mul_assoc, F.cc, neg_mul, mul_assoc]

/-- Matrix elements with triply and quadruply excited determinants are antisymmetric. -/
theorem bra3_antisymmetric (X : A) :
    Antisymmetric 3 3 (at6 fun i j k a b c => F.ω (F.bra3 a b c i j k * X)) := by
  refine antisymmetric_at6 _ ?_ ?_ ?_ ?_ <;> intro i j k a b c <;> simp only [Fermi.bra3, mul_assoc]
  · rw [F.dd' i j]; simp
  · rw [F.dd' j k]; simp
  · rw [F.cc' b a]; simp
  · rw [F.cc' c b]; simp

theorem bra4_antisymmetric (X : A) :
    Antisymmetric 4 4 (at8 fun i j k l a b c d => F.ω (F.bra4 a b c d i j k l * X)) := by
  refine antisymmetric_at8 _ ?_ ?_ ?_ ?_ ?_ ?_ <;> intro i j k l a b c d <;> simp only [Fermi.bra4, mul_assoc]
  · rw [F.dd' i j]; simp
  · rw [F.dd' j k]; simp
  · rw [F.dd' k l]; simp
  · rw [F.cc' b a]; simp
  · rw [F.cc' c b]; simp
  · rw [F.cc' d c]; simp

variable [Inhabited I]

/-- The bras contracted with de-excitation amplitudes. -/
def braX : Nat → OpTerm
  | 3 => ⟨1, [⟨79, [192, 194, 196, 193, 195, 197]⟩],
      [(true, 192), (true, 194), (true, 196), (false, 197), (false, 195), (false, 193)]⟩
  | _ => ⟨1, [⟨119, [192, 194, 196, 198, 193, 195, 197, 199]⟩],
      [(true, 192), (true, 194), (true, 196), (true, 198), (false, 199), (false, 197), (false, 195), (false, 193)]⟩

omit [DecidableEq I] [Inhabited I] in
theorem braX_ok3 (S : SO I K) (hS : S.Sym) : BraX S.T (braX 3) := by
  refine ⟨rfl, by decide, by decide, by decide, by decide, ?_⟩
  intro z hz z' hz' hne he
  have key : ∀ z ∈ (braX 3).ops, ∀ z' ∈ (braX 3).ops, z ≠ z' → eqv z z' = true → z.2 ≠ z'.2 ∧
      (linked z.2 z'.2 (N.kinds 79).links [192, 194, 196, 193, 195, 197] ||
        linked z'.2 z.2 (N.kinds 79).links [192, 194, 196, 193, 195, 197]) = true := by decide +kernel
  obtain ⟨h1, h2⟩ := key z hz z' hz' hne he
  exact sw_links S.T hS.holds _ _ _ _ h1 h2

omit [DecidableEq I] [Inhabited I] in
theorem braX_ok4 (S : SO I K) (hS : S.Sym) : BraX S.T (braX 4) := by
  refine ⟨rfl, by decide, by decide, by decide, by decide, ?_⟩
  intro z hz z' hz' hne he
  have key : ∀ z ∈ (braX 4).ops, ∀ z' ∈ (braX 4).ops, z ≠ z' → eqv z z' = true → z.2 ≠ z'.2 ∧
      (linked z.2 z'.2 (N.kinds 119).links [192, 194, 196, 198, 193, 195, 197, 199] ||
        linked z'.2 z.2 (N.kinds 119).links [192, 194, 196, 198, 193, 195, 197, 199]) = true := by decide +kernel
  obtain ⟨h1, h2⟩ := key z hz z' hz' hne he
  exact sw_links S.T hS.holds _ _ _ _ h1 h2

/-- Arrays with the delta as de-excitation amplitudes. -/
def dl3 (S : SO I K) (o v : Fin 3 → I) : SO I K := { S with l3 := fun i j k a b c => delta 3 3 o v [i, j, k, a, b, c] }

def dl4 (S : SO I K) (o v : Fin 4 → I) : SO I K :=
  { S with l4 := fun i j k l a b c d => delta 4 4 o v [i, j, k, l, a, b, c, d] }

omit [Inhabited I] in
theorem dl3_sym (S : SO I K) (hS : S.Sym) (o v : Fin 3 → I) : (dl3 S o v).Sym := by
  have hd := delta_antisymmetric (K := K) 3 3 o v
  have f : ∀ (i j : Fin 3) (p q r s u w : I), i ≠ j → delta 3 3 o v (List.ofFn (![p, q, r] ∘ Equiv.swap i j) ++ [s, u, w]) =
      - (delta 3 3 o v [p, q, r, s, u, w] : K) := fun i j p q r s u w h => by
    simpa using hd.first i j ![p, q, r] ![s, u, w] h
  have g : ∀ (i j : Fin 3) (p q r s u w : I), i ≠ j → delta 3 3 o v ([p, q, r] ++ List.ofFn (![s, u, w] ∘ Equiv.swap i j)) =
      - (delta 3 3 o v [p, q, r, s, u, w] : K) := fun i j p q r s u w h => by
    simpa using hd.last i j ![p, q, r] ![s, u, w] h
  refine { hS with l3_anti0 := ?_, l3_anti1 := ?_, l3_anti3 := ?_, l3_anti4 := ?_ } <;> intro p q r s u w <;>
    simp only [dl3]
  · have := f 0 1 q p r s u w (by decide); simpa [Equiv.swap_apply_def] using this
  · have := f 1 2 p r q s u w (by decide); simpa [Equiv.swap_apply_def] using this
  · have := g 0 1 p q r u s w (by decide); simpa [Equiv.swap_apply_def] using this
  · have := g 1 2 p q r s w u (by decide); simpa [Equiv.swap_apply_def] using this

omit [Inhabited I] in
theorem dl4_sym (S : SO I K) (hS : S.Sym) (o v : Fin 4 → I) : (dl4 S o v).Sym := by
  have hd := delta_antisymmetric (K := K) 4 4 o v
  have f : ∀ (i j : Fin 4) (p q r s u w y z : I), i ≠ j →
      delta 4 4 o v (List.ofFn (![p, q, r, s] ∘ Equiv.swap i j) ++ [u, w, y, z]) =
      - (delta 4 4 o v [p, q, r, s, u, w, y, z] : K) := fun i j p q r s u w y z h => by
    simpa using hd.first i j ![p, q, r, s] ![u, w, y, z] h
  have g : ∀ (i j : Fin 4) (p q r s u w y z : I), i ≠ j →
      delta 4 4 o v ([p, q, r, s] ++ List.ofFn (![u, w, y, z] ∘ Equiv.swap i j)) =
      - (delta 4 4 o v [p, q, r, s, u, w, y, z] : K) := fun i j p q r s u w y z h => by
    simpa using hd.last i j ![p, q, r, s] ![u, w, y, z] h
  refine { hS with l4_anti0 := ?_, l4_anti1 := ?_, l4_anti2 := ?_, l4_anti4 := ?_, l4_anti5 := ?_, l4_anti6 := ?_ } <;>
    intro p q r s u w y z <;> simp only [dl4]
  · have := f 0 1 q p r s u w y z (by decide); simpa [Equiv.swap_apply_def] using this
  · have := f 1 2 p r q s u w y z (by decide); simpa [Equiv.swap_apply_def] using this
  · have := f 2 3 p q s r u w y z (by decide); simpa [Equiv.swap_apply_def] using this
  · have := g 0 1 p q r s w u y z (by decide); simpa [Equiv.swap_apply_def] using this
  · have := g 1 2 p q r s u y w z (by decide); simpa [Equiv.swap_apply_def] using this
  · have := g 2 3 p q r s u w z y (by decide); simpa [Equiv.swap_apply_def] using this

omit [Inhabited I] in
theorem dl3_T (S : SO I K) (o v : Fin 3 → I) (t : Nat) (h : t ≠ 79) : (dl3 S o v).T t = S.T t := by
  unfold SO.T
  rw [if_neg h, if_neg h]
  rfl

omit [Inhabited I] in
theorem dl4_T (S : SO I K) (o v : Fin 4 → I) (t : Nat) (h : t ≠ 119) : (dl4 S o v).T t = S.T t := by
  unfold SO.T
  rw [if_neg h, if_neg h]
  rfl

/-- Values of the contracted bras. -/
theorem val_braX3 (T : Nat → List I → K) (X : A) : F.ω ((braX 3).val F T [] [] * X) =
    boxSum D [0, 0, 0, 1, 1, 1] fun l => T 79 l * at6 (fun i j k a b c => F.ω (F.bra3 a b c i j k * X)) l := by
  rw [braX, val_one F _ _ _ _ _ _ _ (by decide) (by decide), Int.cast_one, one_smul]
  have e := sumM_box D [192, 194, 196, 193, 195, 197] [] [] (fun _ => (default : I))
    (fun l ρ => T 79 l • F.prod (inst ρ [(true, 192), (true, 194), (true, 196), (false, 197), (false, 195), (false, 193)]))
    (by decide) rfl
  rw [e]
  show (F.ω.toAddMonoidHom.comp (AddMonoidHom.mulRight X)) _ = _
  rw [boxSum_hom]
  refine boxSum_congr D _ _ _ fun l hl => ?_
  have := hl.length
  obtain ⟨i, j, k, a, b, c, rfl⟩ : ∃ i j k a b c, l = [i, j, k, a, b, c] := by
    match l, this with
    | [i, j, k, a, b, c], _ => exact ⟨i, j, k, a, b, c, rfl⟩
  simp [inst, Fermi.prod, Fermi.op, at6, Ein.bind, Fermi.bra3, mul_assoc, Function.update]

theorem val_braX4 (T : Nat → List I → K) (X : A) : F.ω ((braX 4).val F T [] [] * X) =
    boxSum D [0, 0, 0, 0, 1, 1, 1, 1] fun l =>
      T 119 l * at8 (fun i j k l a b c d => F.ω (F.bra4 a b c d i j k l * X)) l := by
  rw [braX, val_one F _ _ _ _ _ _ _ (by decide) (by decide), Int.cast_one, one_smul]
  · have e := sumM_box D [192, 194, 196, 198, 193, 195, 197, 199] [] [] (fun _ => (default : I))
      (fun l ρ => T 119 l • F.prod (inst ρ [(true, 192), (true, 194), (true, 196), (true, 198), (false, 199),
        (false, 197), (false, 195), (false, 193)])) (by decide) rfl
    rw [e]
    show (F.ω.toAddMonoidHom.comp (AddMonoidHom.mulRight X)) _ = _
    rw [boxSum_hom]
    refine boxSum_congr D _ _ _ fun l hl => ?_
    have := hl.length
    obtain ⟨i, j, k, m, a, b, c, d, rfl⟩ : ∃ i j k m a b c d, l = [i, j, k, m, a, b, c, d] := by
      match l, this with
      | [i, j, k, m, a, b, c, d], _ => exact ⟨i, j, k, m, a, b, c, d, rfl⟩
    simp [inst, Fermi.prod, Fermi.op, at8, Ein.bind, Fermi.bra4, mul_assoc, Function.update]
  · decide

/-- Triples: from the contracted matrix elements to the single ones. -/
theorem capped3 [CharZero K] (hD : Disjoint (D 0) (D 1)) (S : SO I K) (hS : S.Sym) (h : I → I → K)
    (hf : IsFock D h S.f S.g) (cs : List (ℚ × List Nat × Part)) (hcs : ∀ c ∈ cs, c.2.1.length ≤ 8) (P : Prog)
    (hP : P.capOk 0 [0, 0, 0, 1, 1, 1] = true) (hfac : P.allFac (fun f => !(Nat.beq f.t 79)) = true)
    (hc : ∀ S' : SO I K, S'.Sym → (matX (braX 3) cs).eval D S'.T [] = (P.cap 0 79).eval D S'.T [])
    (a b c i j k : I) (ha : a ∈ D 1) (hb : b ∈ D 1) (hc' : c ∈ D 1) (hi : i ∈ D 0) (hj : j ∈ D 0) (hk : k ∈ D 0) :
    (cs.map fun x => ((x.1 * (4 * scale x.2.1 : ℕ) : ℚ) : K) * (36 *
      F.ω (F.bra3 a b c i j k * adW (x.2.1.map (F.cl S)) (F.part h S x.2.2)))).sum =
      permutationSum 3 3 (P.eval D S.T) ![i, j, k] ![a, b, c] := by
  have ho : ∀ n, (![i, j, k] : Fin 3 → I) n ∈ D 0 := by intro n; fin_cases n <;> simp [hi, hj, hk]
  have hv : ∀ n, (![a, b, c] : Fin 3 → I) n ∈ D 1 := by intro n; fin_cases n <;> simp [ha, hb, hc']
  have hbox : ∀ σ τ : Perm (Fin 3), InBox D [0, 0, 0, 1, 1, 1] (List.ofFn (![i, j, k] ∘ σ) ++ List.ofFn (![a, b, c] ∘ τ)) :=
    inBox_halves D ![i, j, k] ![a, b, c] ho hv
  have hdel : ∀ l : List I, InBox D [0, 0, 0, 1, 1, 1] l →
      (dl3 S ![i, j, k] ![a, b, c]).T 79 l = delta 3 3 ![i, j, k] ![a, b, c] l := by
    intro l hl
    match l, hl.length with
    | [_, _, _, _, _, _], _ => rfl
  have e := hc _ (dl3_sym S hS ![i, j, k] ![a, b, c])
  rw [matrixX F hD (dl3 S ![i, j, k] ![a, b, c]) (dl3_sym S hS _ _) h hf _ (braX_ok3 _ (dl3_sym S hS _ _)) cs hcs,
    Prog.eval_cap D _ 0 79 [0, 0, 0, 1, 1, 1] P hP [] rfl] at e
  have e2 : boxSum D [0, 0, 0, 1, 1, 1] (fun l => (dl3 S ![i, j, k] ![a, b, c]).T 79 l *
      P.eval D (dl3 S ![i, j, k] ![a, b, c]).T ([] ++ l)) = permutationSum 3 3 (P.eval D S.T) ![i, j, k] ![a, b, c] := by
    rw [← boxSum_delta D _ _ _ _ hbox]
    refine boxSum_congr D _ _ _ fun l hl => ?_
    rw [hdel l hl, List.nil_append]
    congr 1
    refine Prog.eval_congrT D _ _ P _ hfac (fun f hf l _ => ?_) l
    rw [dl3_T]
    intro h79
    simp [h79] at hf
  rw [e2] at e
  rw [← e]
  congr 1
  refine List.map_congr_left fun x _ => ?_
  congr 1
  rw [val_braX3, boxSum_congr D _ _ _ fun l hl => by rw [hdel l hl], boxSum_delta D _ _ _ _ hbox,
    sum_of_antisymmetric 3 3 _ (bra3_antisymmetric F _)]
  simp [at6, Nat.factorial]
  norm_num
  rfl

/-- Quadruples: from the contracted matrix elements to the single ones. -/
theorem capped4 [CharZero K] (hD : Disjoint (D 0) (D 1)) (S : SO I K) (hS : S.Sym) (h : I → I → K)
    (hf : IsFock D h S.f S.g) (cs : List (ℚ × List Nat × Part)) (hcs : ∀ c ∈ cs, c.2.1.length ≤ 8) (P : Prog)
    (hP : P.capOk 0 [0, 0, 0, 0, 1, 1, 1, 1] = true) (hfac : P.allFac (fun f => !(Nat.beq f.t 119)) = true)
    (hc : ∀ S' : SO I K, S'.Sym → (matX (braX 4) cs).eval D S'.T [] = (P.cap 0 119).eval D S'.T [])
    (a b c d i j k l : I) (ha : a ∈ D 1) (hb : b ∈ D 1) (hc' : c ∈ D 1) (hd : d ∈ D 1) (hi : i ∈ D 0) (hj : j ∈ D 0)
    (hk : k ∈ D 0) (hl : l ∈ D 0) :
    (cs.map fun x => ((x.1 * (4 * scale x.2.1 : ℕ) : ℚ) : K) * (576 *
      F.ω (F.bra4 a b c d i j k l * adW (x.2.1.map (F.cl S)) (F.part h S x.2.2)))).sum =
      permutationSum 4 4 (P.eval D S.T) ![i, j, k, l] ![a, b, c, d] := by
  have ho : ∀ n, (![i, j, k, l] : Fin 4 → I) n ∈ D 0 := by intro n; fin_cases n <;> simp [hi, hj, hk, hl]
  have hv : ∀ n, (![a, b, c, d] : Fin 4 → I) n ∈ D 1 := by intro n; fin_cases n <;> simp [ha, hb, hc', hd]
  have hbox : ∀ σ τ : Perm (Fin 4), InBox D [0, 0, 0, 0, 1, 1, 1, 1]
      (List.ofFn (![i, j, k, l] ∘ σ) ++ List.ofFn (![a, b, c, d] ∘ τ)) := inBox_halves D ![i, j, k, l] ![a, b, c, d] ho hv
  have hdel : ∀ y : List I, InBox D [0, 0, 0, 0, 1, 1, 1, 1] y →
      (dl4 S ![i, j, k, l] ![a, b, c, d]).T 119 y = delta 4 4 ![i, j, k, l] ![a, b, c, d] y := by
    intro y hy
    match y, hy.length with
    | [_, _, _, _, _, _, _, _], _ => rfl
  have e := hc _ (dl4_sym S hS ![i, j, k, l] ![a, b, c, d])
  rw [matrixX F hD (dl4 S ![i, j, k, l] ![a, b, c, d]) (dl4_sym S hS _ _) h hf _ (braX_ok4 _ (dl4_sym S hS _ _)) cs hcs,
    Prog.eval_cap D _ 0 119 [0, 0, 0, 0, 1, 1, 1, 1] P hP [] rfl] at e
  have e2 : boxSum D [0, 0, 0, 0, 1, 1, 1, 1] (fun y => (dl4 S ![i, j, k, l] ![a, b, c, d]).T 119 y *
      P.eval D (dl4 S ![i, j, k, l] ![a, b, c, d]).T ([] ++ y)) =
      permutationSum 4 4 (P.eval D S.T) ![i, j, k, l] ![a, b, c, d] := by
    rw [← boxSum_delta D _ _ _ _ hbox]
    refine boxSum_congr D _ _ _ fun y hy => ?_
    rw [hdel y hy, List.nil_append]
    congr 1
    refine Prog.eval_congrT D _ _ P _ hfac (fun f hf l _ => ?_) y
    rw [dl4_T]
    intro h79
    simp [h79] at hf
  rw [e2] at e
  rw [← e]
  congr 1
  refine List.map_congr_left fun x _ => ?_
  congr 1
  rw [val_braX4, boxSum_congr D _ _ _ fun y hy => by rw [hdel y hy], boxSum_delta D _ _ _ _ hbox,
    sum_of_antisymmetric 4 4 _ (bra4_antisymmetric F _)]
  simp [at8, Nat.factorial]
  norm_num
  rfl

/-- `⟨B e^{-T} H e^{T}⟩` by commutators. -/
theorem bch_words [CharZero K] (hD : Disjoint (D 0) (D 1)) (S : SO I K) (hS : S.Sym) (h : I → I → K) (B : A)
    (ks : List Nat) (L : Nat) (kB kX : ℤ) (hB : B ∈ F.Ge kB) (hX : (ks.map (F.cl S)).sum ∈ F.Ge kX) (hkX : 0 ≤ kX)
    (hL : 0 < kB - 4 + kX * L) (M N : Nat) (hM : L ≤ M) (hN : L ≤ N) :
    F.ω (B * expS K M (-(ks.map (F.cl S)).sum) * F.ham h S.g * expS K N (ks.map (F.cl S)).sum) =
      ((wordsC ks L).map fun c => ((c.2 * (4 * scale c.1 : ℕ) : ℚ) : K) *
        F.ω (B * adW (c.1.map (F.cl S)) (F.ham h S.g))).sum := by
  rw [bch F.ω _ _ (F.cl S) (cl_commute F hD S hS) ks L (fun m n hmn => ?_) M N hM hN]
  · rw [wordsC, List.map_map]
    congr 1
    refine List.map_congr_left fun u _ => ?_
    simp only [Function.comp]
    congr 1
    have hs : (scale u.1 : K) ≠ 0 := by
      have : scale u.1 ≠ 0 := by
        unfold scale
        rw [Ne, List.prod_eq_zero_iff]
        intro hc
        obtain ⟨k, _, hk⟩ := List.mem_map.1 hc
        exact tS_ne k hk
      exact_mod_cast this
    push_cast
    by_cases hu : (u.2 : K) = 0
    · simp [hu]
    · field_simp
  · have h1 := F.mul_Ge (F.mul_Ge (F.mul_Ge hB (F.pow_Ge hX m)) (F.ham_Ge h S.g)) (F.pow_Ge hX n)
    refine F.ω_Ge hD _ ?_ _ h1
    have : kX * L ≤ kX * (m + n) := mul_le_mul_of_nonneg_left (by exact_mod_cast hmn) hkX
    linarith

/-- Projections on triply excited determinants. -/
theorem projected3 [CharZero K] (hD : Disjoint (D 0) (D 1)) (S : SO I K) (hS : S.Sym) (h : I → I → K)
    (hf : IsFock D h S.f S.g) (ks : List Nat) (L : Nat) (hL8 : ∀ c ∈ wordsC ks L, c.1.length ≤ 8) (kX : ℤ)
    (hX : (ks.map (F.cl S)).sum ∈ F.Ge kX) (hkX : 0 ≤ kX) (hL : 0 < -6 - 4 + kX * L) (P : Prog)
    (hP : P.capOk 0 [0, 0, 0, 1, 1, 1] = true) (hfac : P.allFac (fun f => !(Nat.beq f.t 79)) = true)
    (cs : List (ℚ × List Nat × Part)) (hcs : cs = (wordsC ks L).map fun c => (c.2 / 36, c.1, .all))
    (hc : ∀ S' : SO I K, S'.Sym → (matX (braX 3) cs).eval D S'.T [] = (P.cap 0 79).eval D S'.T [])
    (a b c i j k : I) (ha : a ∈ D 1) (hb : b ∈ D 1) (hc' : c ∈ D 1) (hi : i ∈ D 0) (hj : j ∈ D 0) (hk : k ∈ D 0)
    (M N : Nat) (hM : L ≤ M) (hN : L ≤ N) :
    F.ω (F.bra3 a b c i j k * expS K M (-(ks.map (F.cl S)).sum) * F.ham h S.g * expS K N (ks.map (F.cl S)).sum) =
      permutationSum 3 3 (P.eval D S.T) ![i, j, k] ![a, b, c] := by
  rw [bch_words F hD S hS h _ ks L (-6) kX (F.bra3_Ge a b c i j k ha hb hc' hi hj hk) hX hkX hL M N hM hN]
  have hlen : ∀ c ∈ cs, c.2.1.length ≤ 8 := by
    intro x hx
    rw [hcs] at hx
    obtain ⟨y, hy, rfl⟩ := List.mem_map.1 hx
    exact hL8 y hy
  rw [← capped3 F hD S hS h hf cs hlen P hP hfac hc a b c i j k ha hb hc' hi hj hk, hcs, List.map_map]
  congr 1
  refine List.map_congr_left fun x _ => ?_
  simp only [Function.comp, Fermi.part]
  push_cast
  ring

/-- Projections on quadruply excited determinants. -/
theorem projected4 [CharZero K] (hD : Disjoint (D 0) (D 1)) (S : SO I K) (hS : S.Sym) (h : I → I → K)
    (hf : IsFock D h S.f S.g) (ks : List Nat) (L : Nat) (hL8 : ∀ c ∈ wordsC ks L, c.1.length ≤ 8) (kX : ℤ)
    (hX : (ks.map (F.cl S)).sum ∈ F.Ge kX) (hkX : 0 ≤ kX) (hL : 0 < -8 - 4 + kX * L) (P : Prog)
    (hP : P.capOk 0 [0, 0, 0, 0, 1, 1, 1, 1] = true) (hfac : P.allFac (fun f => !(Nat.beq f.t 119)) = true)
    (cs : List (ℚ × List Nat × Part)) (hcs : cs = (wordsC ks L).map fun c => (c.2 / 576, c.1, .all))
    (hc : ∀ S' : SO I K, S'.Sym → (matX (braX 4) cs).eval D S'.T [] = (P.cap 0 119).eval D S'.T [])
    (a b c d i j k l : I) (ha : a ∈ D 1) (hb : b ∈ D 1) (hc' : c ∈ D 1) (hd : d ∈ D 1) (hi : i ∈ D 0) (hj : j ∈ D 0)
    (hk : k ∈ D 0) (hl : l ∈ D 0) (M N : Nat) (hM : L ≤ M) (hN : L ≤ N) :
    F.ω (F.bra4 a b c d i j k l * expS K M (-(ks.map (F.cl S)).sum) * F.ham h S.g * expS K N (ks.map (F.cl S)).sum) =
      permutationSum 4 4 (P.eval D S.T) ![i, j, k, l] ![a, b, c, d] := by
  rw [bch_words F hD S hS h _ ks L (-8) kX (F.bra4_Ge a b c d i j k l ha hb hc' hd hi hj hk hl) hX hkX hL M N hM hN]
  have hlen : ∀ c ∈ cs, c.2.1.length ≤ 8 := by
    intro x hx
    rw [hcs] at hx
    obtain ⟨y, hy, rfl⟩ := List.mem_map.1 hx
    exact hL8 y hy
  rw [← capped4 F hD S hS h hf cs hlen P hP hfac hc a b c d i j k l ha hb hc' hd hi hj hk hl, hcs, List.map_map]
  congr 1
  refine List.map_congr_left fun x _ => ?_
  simp only [Function.comp, Fermi.part]
  push_cast
  ring

omit [Inhabited I] in
theorem Fermi.cross (a k : I) (hak : a ≠ k) (x : A) : F.c a * (F.cd k * x) = - (F.cd k * (F.c a * x)) := by
  rw [← mul_assoc, F.cd_anti, if_neg hak, zero_sub, neg_mul, mul_assoc]

omit [Inhabited I] in
/-- A doubly excited bra followed by a double de-excitation is a sum of quadruply excited bras. -/
theorem bra2_L2 (hD : Disjoint (D 0) (D 1)) (l : I → I → I → I → K) (X : A) (a b i j : I) (ha : a ∈ D 1) (hb : b ∈ D 1) :
    F.ω (F.bra2 a b i j * F.L2 l * X) = 1 / 4 * boxSum D [0, 0, 1, 1] fun y =>
      at4 l y * at4 (fun k m c d => F.ω (F.bra4 a b c d i j k m * X)) y := by
  have key : ∀ k ∈ D 0, ∀ m ∈ D 0, ∀ c d : I, F.bra2 a b i j * (F.cd k * F.cd m * F.c d * F.c c) = F.bra4 a b c d i j k m := by
    intro k hk m hm c d
    have h : ∀ a ∈ D 1, ∀ k ∈ D 0, a ≠ k := fun a ha k hk e => Finset.disjoint_left.1 hD hk (e ▸ ha)
    simp only [Fermi.bra2, Fermi.bra4, mul_assoc]
    simp only [F.cross a k (h a ha k hk), F.cross a m (h a ha m hm), F.cross b k (h b hb k hk),
      F.cross b m (h b hb m hm), mul_neg, neg_neg]
    rw [F.cc' a d, F.cc a c]
    simp only [mul_neg, neg_neg]
    rw [F.cc' b d, F.cc' b c]
    simp only [mul_neg, neg_neg]
  simp only [boxSum, at4, Fermi.L2]
  rw [mul_smul_comm (1 / 4 : K), smul_mul_assoc, map_smul, smul_eq_mul]
  congr 1
  simp only [Finset.mul_sum, Finset.sum_mul, map_sum]
  refine Finset.sum_congr rfl fun k hk => Finset.sum_congr rfl fun m hm => Finset.sum_congr rfl fun c _ =>
    Finset.sum_congr rfl fun d _ => ?_
  rw [mul_smul_comm, key k hk m hm, smul_mul_assoc, map_smul, smul_eq_mul]

end Verif.Wick
