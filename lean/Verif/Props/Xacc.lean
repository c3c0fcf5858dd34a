import Verif.Model.Xacc
import Verif.Lemmas.Setup
import Mathlib.Tactic.Ring
import Mathlib.Algebra.Field.Rat

/-!
# External amplitudes and integrals (C46, C47)
-/

namespace Verif.Props
open Verif.Xacc Verif.Setup

variable {K : Type} [Field K]

/-! ## Specification -/

/-- The lines that carry amplitudes: those after the first line that starts with `+++++`. -/
def records (file : List (Line K)) : List (Line K) := (file.dropWhile fun l => !l.marker).tail

/-- The line starts with four operators, which address the entry `[a,b,i,j]`, and its value is `x`. -/
def Doubles (nocc nvirt : ℕ) (l : Line K) (a b i j : ℕ) (x : K) : Prop :=
  ∃ p q r s rest, l.toks = .op p :: .op q :: .op r :: .op s :: rest ∧ l.val = .ok x ∧
    pyIdx nvirt (p - nocc) = some a ∧ pyIdx nvirt (q - nocc) = some b ∧ pyIdx nocc r = some i ∧ pyIdx nocc s = some j

/-- The line has two or three operators, the first two address the entry `[a,i]`, and its value is `x`. -/
def Singles (nocc nvirt : ℕ) (l : Line K) (a i : ℕ) (x : K) : Prop :=
  ∃ p r rest, ops 4 l.toks = .ok (p :: r :: rest) ∧ rest.length < 2 ∧ l.val = .ok x ∧
    pyIdx nvirt (p - nocc) = some a ∧ pyIdx nocc r = some i

/-- The line of the integral file starts with four operators, which address `[a,b,c,d]`, and its value is `x`. -/
def Integral (nbas : ℕ) (l : Line K) (a b c d : ℕ) (x : K) : Prop :=
  ∃ p q r s rest, l.toks ++ [l.last] = .op p :: .op q :: .op r :: .op s :: rest ∧ l.val = .ok x ∧
    pyIdx nbas p = some a ∧ pyIdx nbas q = some b ∧ pyIdx nbas r = some c ∧ pyIdx nbas s = some d

/-- The same two numbers, in either order. -/
def SamePair (a b a' b' : ℕ) : Prop := (a' = a ∧ b' = b) ∨ (a' = b ∧ b' = a)

/-! ## Auxiliary facts -/

theorem ops_four (ts : List Tok) (p q r s : ℤ) (h : ops 4 ts = .ok [p, q, r, s]) :
    ∃ rest, ts = .op p :: .op q :: .op r :: .op s :: rest := by
  rcases ts with _ | ⟨t1, _ | ⟨t2, _ | ⟨t3, _ | ⟨t4, ts⟩⟩⟩⟩ <;>
    [skip; rcases t1 with _ | _ | _; (rcases t1 with _ | _ | _ <;> rcases t2 with _ | _ | _);
     (rcases t1 with _ | _ | _ <;> rcases t2 with _ | _ | _ <;> rcases t3 with _ | _ | _);
     (rcases t1 with _ | _ | _ <;> rcases t2 with _ | _ | _ <;> rcases t3 with _ | _ | _ <;> rcases t4 with _ | _ | _)] <;>
    simp [ops] at h
  obtain ⟨rfl, rfl, rfl, rfl⟩ := h
  exact ⟨ts, rfl⟩

theorem ops_length (n : ℕ) (ts : List Tok) (l : List ℤ) (h : ops n ts = .ok l) : l.length ≤ n := by
  induction n generalizing ts l with
  | zero => simp [ops] at h; subst h; simp
  | succ n ih =>
    rcases ts with _ | ⟨t, ts⟩
    · simp [ops] at h; subst h; simp
    · rcases t with z | _ | _
      · simp only [ops] at h
        rcases hh : ops n ts with e | m
        · rw [hh] at h; simp at h
        · rw [hh] at h; simp at h; subst h; simpa using ih ts m hh
      · simp [ops] at h; subst h; simp
      · simp [ops] at h

/-- What one record does to the arrays. -/
theorem readRecord_cases (nocc nvirt : ℕ) (A B : Amps K) (l : Line K) (h : readRecord nocc nvirt A l = .ok B) :
    B.read = A.read ∧
    ((∃ a b i j x, Doubles nocc nvirt l a b i j x ∧ (∀ c k y, ¬ Singles nocc nvirt l c k y) ∧
        (∀ a' b' i' j' x', Doubles nocc nvirt l a' b' i' j' x' → a' = a ∧ b' = b ∧ i' = i ∧ j' = j ∧ x' = x) ∧
        B.t2 = store A.t2 (doublesWrites a b i j x) ∧ B.t1 = A.t1) ∨
     (∃ a i x, Singles nocc nvirt l a i x ∧ (∀ c d k m y, ¬ Doubles nocc nvirt l c d k m y) ∧
        (∀ a' i' x', Singles nocc nvirt l a' i' x' → a' = a ∧ i' = i ∧ x' = x) ∧
        B.t1 = store A.t1 [((a, i), x)] ∧ B.t2 = A.t2)) := by
  unfold readRecord at h
  split at h
  · simp at h
  · rename_i x hx
    split at h
    · simp at h
    · rename_i p q r s ho
      split at h
      · rename_i a b i j ha hb hi hj
        simp at h; subst h
        obtain ⟨rest, hr⟩ := ops_four _ _ _ _ _ ho
        refine ⟨rfl, Or.inl ⟨a, b, i, j, x, ⟨p, q, r, s, rest, hr, hx, ha, hb, hi, hj⟩, ?_, ?_, rfl, rfl⟩⟩
        · rintro c k y ⟨p', r', rest', ho', hlt, -⟩
          rw [ho] at ho'
          simp at ho'
          rw [← ho'.2.2] at hlt
          simp at hlt
        · rintro a' b' i' j' x' ⟨p', q', r', s', rest', hr', hx', ha', hb', hi', hj'⟩
          rw [hr] at hr'
          simp at hr'
          obtain ⟨rfl, rfl, rfl, rfl, -⟩ := hr'
          rw [hx] at hx'; rw [ha] at ha'; rw [hb] at hb'; rw [hi] at hi'; rw [hj] at hj'
          simp at hx' ha' hb' hi' hj'
          simp [hx', ha', hb', hi', hj']
      · simp at h
    · rename_i p r rest hne ho
      split at h
      · rename_i a i ha hi
        simp at h; subst h
        have hl := ops_length 4 _ _ ho
        have hlt : rest.length < 2 := by
          rcases rest with _ | ⟨u, _ | ⟨v, _ | ⟨w, t⟩⟩⟩
          · simp
          · simp
          · exact (hne u v rfl).elim
          · simp at hl; omega
        refine ⟨rfl, Or.inr ⟨a, i, x, ⟨p, r, rest, ho, hlt, hx, ha, hi⟩, ?_, ?_, rfl, rfl⟩⟩
        · rintro c d k m y ⟨p', q', r', s', rest', hr', -⟩
          rw [hr'] at ho
          simp [ops] at ho
          rw [← ho.2.2] at hlt
          simp at hlt
        · rintro a' i' x' ⟨p', r', rest', ho', -, hx', ha', hi'⟩
          rw [ho] at ho'
          simp at ho'
          obtain ⟨rfl, rfl, -⟩ := ho'
          rw [hx] at hx'; rw [ha] at ha'; rw [hi] at hi'
          simp at hx' ha' hi'
          simp [hx', ha', hi']
      · simp at h
    · simp at h

theorem readLines_append (nocc nvirt : ℕ) (A : Amps K) (u w : List (Line K)) (C : Amps K)
    (h : readLines nocc nvirt A (u ++ w) = .ok C) :
    ∃ B, readLines nocc nvirt A u = .ok B ∧ readLines nocc nvirt B w = .ok C := by
  induction u generalizing A with
  | nil => exact ⟨A, rfl, h⟩
  | cons l u ih =>
    simp only [List.cons_append, readLines] at h ⊢
    split at h
    · simp at h
    · rename_i B hB
      exact ih B h

theorem readLine_read (nocc nvirt : ℕ) (A B : Amps K) (l : Line K) (hr : A.read = true)
    (h : readLine nocc nvirt A l = .ok B) :
    B.read = true ∧ ∃ C, readRecord nocc nvirt A l = .ok C ∧ C.t1 = B.t1 ∧ C.t2 = B.t2 := by
  unfold readLine at h
  rw [if_pos hr] at h
  split at h
  · simp at h
  · rename_i C hC
    simp at h
    have := (readRecord_cases nocc nvirt A C l hC).1
    subst h
    refine ⟨?_, C, hC, ?_, ?_⟩ <;> split <;> simp_all

theorem readLines_read (nocc nvirt : ℕ) (A B : Amps K) (ls : List (Line K)) (hr : A.read = true)
    (h : readLines nocc nvirt A ls = .ok B) : B.read = true := by
  induction ls generalizing A with
  | nil => simp [readLines] at h; rw [← h]; exact hr
  | cons l ls ih =>
    simp only [readLines] at h
    split at h
    · simp at h
    · rename_i C hC
      exact ih C (readLine_read nocc nvirt A C l hr hC).1 h

/-- Reading a file is reading its records, starting from zero arrays. -/
theorem read_tamps_records (nocc nvirt : ℕ) (file : List (Line K)) (B : Amps K)
    (h : read_tamps nocc nvirt file = .ok B) :
    (records file = [] ∧ B.t1 = (fun _ => 0) ∧ B.t2 = fun _ => 0) ∨
    readLines nocc nvirt ⟨fun _ => 0, fun _ => 0, true⟩ (records file) = .ok B := by
  unfold read_tamps at h
  have : ∀ (f : List (Line K)), readLines nocc nvirt Amps.init f = .ok B →
      (records f = [] ∧ B.t1 = (fun _ => 0) ∧ B.t2 = fun _ => 0) ∨
      readLines nocc nvirt ⟨fun _ => 0, fun _ => 0, true⟩ (records f) = .ok B := by
    intro f
    induction f with
    | nil => intro h; simp [readLines] at h; subst h; left; exact ⟨rfl, rfl, rfl⟩
    | cons l f ih =>
      intro h
      cases hm : l.marker
      · have e : readLine nocc nvirt (Amps.init (K := K)) l = .ok Amps.init := by simp [readLine, Amps.init, hm]
        simp only [readLines, e] at h
        have hrec : records (l :: f) = records f := by simp [records, hm]
        rw [hrec]
        exact ih h
      · have e : readLine nocc nvirt (Amps.init (K := K)) l = .ok ⟨fun _ => 0, fun _ => 0, true⟩ := by
          simp [readLine, Amps.init, hm]
        simp only [readLines, e] at h
        right
        have hrec : records (l :: f) = f := by simp [records, hm]
        rw [hrec]
        exact h
  exact this file h

theorem store_same (A : ℕ × ℕ × ℕ × ℕ → K) (a b i j : ℕ) (x : K) (y : ℕ × ℕ × ℕ × ℕ)
    (hy : ¬ (SamePair a b y.1 y.2.1 ∧ SamePair i j y.2.2.1 y.2.2.2)) :
    store A (doublesWrites a b i j x) y = A y := by
  rw [store_eq A _ y 0]
  · rw [if_neg]
    rintro ⟨w, hw, rfl⟩
    simp only [doublesWrites, List.mem_cons, List.not_mem_nil, or_false] at hw
    apply hy
    rcases hw with rfl | rfl | rfl | rfl <;> simp [SamePair]
  · intro w hw e
    exfalso
    subst e
    simp only [doublesWrites, List.mem_cons, List.not_mem_nil, or_false] at hw
    apply hy
    rcases hw with rfl | rfl | rfl | rfl <;> simp [SamePair]

/-- Records that do not address a position leave it alone. -/
theorem readLines_t2_other (nocc nvirt : ℕ) (A B : Amps K) (ls : List (Line K)) (hr : A.read = true)
    (h : readLines nocc nvirt A ls = .ok B) (a b i j : ℕ)
    (hn : ∀ l ∈ ls, ∀ a' b' i' j' x, Doubles nocc nvirt l a' b' i' j' x → ¬ (SamePair a' b' a b ∧ SamePair i' j' i j)) :
    B.t2 (a, b, i, j) = A.t2 (a, b, i, j) := by
  induction ls generalizing A with
  | nil => simp [readLines] at h; rw [h]
  | cons l ls ih =>
    simp only [readLines] at h
    split at h
    · simp at h
    · rename_i C hC
      obtain ⟨hr', E, hE, h1, h2⟩ := readLine_read nocc nvirt A C l hr hC
      rw [ih C hr' h fun l' hl' => hn l' (List.mem_cons_of_mem _ hl'), ← h2]
      rcases (readRecord_cases nocc nvirt A E l hE).2 with ⟨a', b', i', j', x, hd, -, -, e2, -⟩ | ⟨_, _, _, _, _, _, _, e2⟩
      · rw [e2]
        exact store_same _ _ _ _ _ _ (a, b, i, j) (hn l (List.mem_cons_self ..) a' b' i' j' x hd)
      · rw [e2]

theorem readLines_t1_other (nocc nvirt : ℕ) (A B : Amps K) (ls : List (Line K)) (hr : A.read = true)
    (h : readLines nocc nvirt A ls = .ok B) (a i : ℕ)
    (hn : ∀ l ∈ ls, ∀ x, ¬ Singles nocc nvirt l a i x) :
    B.t1 (a, i) = A.t1 (a, i) := by
  induction ls generalizing A with
  | nil => simp [readLines] at h; rw [h]
  | cons l ls ih =>
    simp only [readLines] at h
    split at h
    · simp at h
    · rename_i C hC
      obtain ⟨hr', E, hE, h1, h2⟩ := readLine_read nocc nvirt A C l hr hC
      rw [ih C hr' h fun l' hl' => hn l' (List.mem_cons_of_mem _ hl'), ← h1]
      rcases (readRecord_cases nocc nvirt A E l hE).2 with ⟨_, _, _, _, _, _, _, _, _, e1⟩ | ⟨a', i', x, hs, -, -, e1, -⟩
      · rw [e1]
      · rw [e1]
        have : (a, i) ≠ (a', i') := by
          rintro ⟨⟩; exact hn l (List.mem_cons_self ..) x hs
        simp [store, Function.update, this]

/-! ## C47 -/

/-- **C47** for doubles: the last record that addresses an entry (in whatever order of its indices) determines the
entry and its three images. -/
theorem C47_doubles (nocc nvirt : ℕ) (file : List (Line K)) (B : Amps K) (h : read_tamps nocc nvirt file = .ok B)
    (u w : List (Line K)) (l : Line K) (hf : records file = u ++ l :: w) (a b i j : ℕ) (x : K)
    (hl : Doubles nocc nvirt l a b i j x) (hab : a ≠ b) (hij : i ≠ j)
    (hw : ∀ l' ∈ w, ∀ a' b' i' j' x', Doubles nocc nvirt l' a' b' i' j' x' →
      ¬ (SamePair a b a' b' ∧ SamePair i j i' j')) :
    B.t2 (a, b, i, j) = x ∧ B.t2 (b, a, i, j) = -x ∧ B.t2 (a, b, j, i) = -x ∧ B.t2 (b, a, j, i) = x := by
  rcases read_tamps_records nocc nvirt file B h with ⟨he, -⟩ | h
  · rw [hf] at he; simp at he
  · rw [hf] at h
    obtain ⟨A, hA, h2⟩ := readLines_append _ _ _ _ _ _ h
    have hAr := readLines_read nocc nvirt _ A u rfl hA
    simp only [readLines] at h2
    split at h2
    · simp at h2
    · rename_i C hC
      obtain ⟨hr', E, hE, -, e2⟩ := readLine_read nocc nvirt A C l hAr hC
      rcases (readRecord_cases nocc nvirt A E l hE).2 with ⟨a', b', i', j', x', -, -, hu, ee, -⟩ | ⟨_, _, _, _, hd, _⟩
      · obtain ⟨rfl, rfl, rfl, rfl, rfl⟩ := hu a b i j x hl
        have key : ∀ c d k m, SamePair a b c d → SamePair i j k m → B.t2 (c, d, k, m) = E.t2 (c, d, k, m) := by
          intro c d k m h1 h3
          rw [readLines_t2_other nocc nvirt C B w hr' h2 c d k m, e2]
          rintro l' hl' a' b' i' j' x' hd ⟨q1, q2⟩
          refine hw l' hl' a' b' i' j' x' hd ⟨?_, ?_⟩
          · rcases h1 with ⟨rfl, rfl⟩ | ⟨rfl, rfl⟩ <;> rcases q1 with ⟨rfl, rfl⟩ | ⟨rfl, rfl⟩ <;> simp [SamePair]
          · rcases h3 with ⟨rfl, rfl⟩ | ⟨rfl, rfl⟩ <;> rcases q2 with ⟨rfl, rfl⟩ | ⟨rfl, rfl⟩ <;> simp [SamePair]
        rw [key a b i j (Or.inl ⟨rfl, rfl⟩) (Or.inl ⟨rfl, rfl⟩), key b a i j (Or.inr ⟨rfl, rfl⟩) (Or.inl ⟨rfl, rfl⟩),
          key a b j i (Or.inl ⟨rfl, rfl⟩) (Or.inr ⟨rfl, rfl⟩), key b a j i (Or.inr ⟨rfl, rfl⟩) (Or.inr ⟨rfl, rfl⟩), ee]
        simp [store, doublesWrites, Function.update, hab, hij, hab.symm, hij.symm]
      · exact absurd hl (hd _ _ _ _ _)

/-- **C47** Doubles that no record addresses are zero. -/
theorem C47_doubles_absent (nocc nvirt : ℕ) (file : List (Line K)) (B : Amps K)
    (h : read_tamps nocc nvirt file = .ok B) (a b i j : ℕ)
    (hn : ∀ l ∈ records file, ∀ a' b' i' j' x, Doubles nocc nvirt l a' b' i' j' x →
      ¬ (SamePair a' b' a b ∧ SamePair i' j' i j)) : B.t2 (a, b, i, j) = 0 := by
  rcases read_tamps_records nocc nvirt file B h with ⟨-, -, he⟩ | h
  · rw [he]
  · exact readLines_t2_other nocc nvirt _ B _ rfl h a b i j hn

/-- **C47** for singles: the last record wins, and entries without a record are zero. -/
theorem C47_singles (nocc nvirt : ℕ) (file : List (Line K)) (B : Amps K) (h : read_tamps nocc nvirt file = .ok B)
    (a i : ℕ) :
    (∀ u w l x, records file = u ++ l :: w → Singles nocc nvirt l a i x →
      (∀ l' ∈ w, ∀ x', ¬ Singles nocc nvirt l' a i x') → B.t1 (a, i) = x) ∧
    ((∀ l ∈ records file, ∀ x, ¬ Singles nocc nvirt l a i x) → B.t1 (a, i) = 0) := by
  constructor
  · intro u w l x hf hl hw
    rcases read_tamps_records nocc nvirt file B h with ⟨he, -⟩ | h
    · rw [hf] at he; simp at he
    · rw [hf] at h
      obtain ⟨A, hA, h2⟩ := readLines_append _ _ _ _ _ _ h
      have hAr := readLines_read nocc nvirt _ A u rfl hA
      simp only [readLines] at h2
      split at h2
      · simp at h2
      · rename_i C hC
        obtain ⟨hr', E, hE, e1, -⟩ := readLine_read nocc nvirt A C l hAr hC
        rw [readLines_t1_other nocc nvirt C B w hr' h2 a i hw, ← e1]
        rcases (readRecord_cases nocc nvirt A E l hE).2 with ⟨_, _, _, _, _, _, hs, _⟩ | ⟨a', i', x', -, -, hu, ee, -⟩
        · exact absurd hl (hs _ _ _)
        · obtain ⟨rfl, rfl, rfl⟩ := hu a i x hl
          rw [ee]; simp [store]
  · intro hn
    rcases read_tamps_records nocc nvirt file B h with ⟨-, he, -⟩ | h
    · rw [he]
    · exact readLines_t1_other nocc nvirt _ B _ rfl h a i hn

theorem readTeiLine_eq (nbas : ℕ) (T U : ℕ × ℕ × ℕ × ℕ → K) (l : Line K) (h : readTeiLine nbas T l = .ok U) :
    ∃ a b c d x, Integral nbas l a b c d x ∧
      (∀ a' b' c' d' x', Integral nbas l a' b' c' d' x' → a' = a ∧ b' = b ∧ c' = c ∧ d' = d ∧ x' = x) ∧
      U = store T [((a, b, c, d), 4 * x)] := by
  unfold readTeiLine at h
  split at h
  · simp at h
  · rename_i x hx
    split at h
    · simp at h
    · rename_i p q r s ho
      split at h
      · rename_i a b i j ha hb hi hj
        simp at h; subst h
        obtain ⟨rest, hr⟩ := ops_four _ _ _ _ _ ho
        refine ⟨a, b, i, j, x, ⟨p, q, r, s, rest, hr, hx, ha, hb, hi, hj⟩, ?_, rfl⟩
        rintro a' b' i' j' x' ⟨p', q', r', s', rest', hr', hx', ha', hb', hi', hj'⟩
        rw [hr] at hr'
        simp at hr'
        obtain ⟨rfl, rfl, rfl, rfl, -⟩ := hr'
        rw [hx] at hx'; rw [ha] at ha'; rw [hb] at hb'; rw [hi] at hi'; rw [hj] at hj'
        simp at hx' ha' hb' hi' hj'
        simp [hx', ha', hb', hi', hj']
      · simp at h
    · simp at h

theorem readTeiLines_other (nbas : ℕ) (T U : ℕ × ℕ × ℕ × ℕ → K) (ls : List (Line K))
    (h : readTeiLines nbas T ls = .ok U) (a b c d : ℕ) (hn : ∀ l ∈ ls, ∀ x, ¬ Integral nbas l a b c d x) :
    U (a, b, c, d) = T (a, b, c, d) := by
  induction ls generalizing T with
  | nil => simp [readTeiLines] at h; rw [h]
  | cons l ls ih =>
    simp only [readTeiLines] at h
    split at h
    · simp at h
    · rename_i V hV
      rw [ih V h fun l' hl' => hn l' (List.mem_cons_of_mem _ hl')]
      obtain ⟨a', b', c', d', x, hi, -, rfl⟩ := readTeiLine_eq nbas T V l hV
      have : (a, b, c, d) ≠ (a', b', c', d') := by
        rintro ⟨⟩; exact hn l (List.mem_cons_self ..) x hi
      simp [store, Function.update, this]

theorem readTeiLines_append (nbas : ℕ) (T V : ℕ × ℕ × ℕ × ℕ → K) (u w : List (Line K))
    (h : readTeiLines nbas T (u ++ w) = .ok V) :
    ∃ U, readTeiLines nbas T u = .ok U ∧ readTeiLines nbas U w = .ok V := by
  induction u generalizing T with
  | nil => exact ⟨T, rfl, h⟩
  | cons l u ih =>
    simp only [List.cons_append, readTeiLines] at h ⊢
    split at h
    · simp at h
    · rename_i B hB
      exact ih B h

/-- **C47** for integrals: the stored value is four times the value of the last record that addresses the entry, and
zero when there is none. (No permutational image of the entry is written.) -/
theorem C47_integrals (nbas : ℕ) (file : List (Line K)) (T : ℕ × ℕ × ℕ × ℕ → K) (h : read_tei nbas file = .ok T)
    (a b c d : ℕ) :
    (∀ u w l x, file = u ++ l :: w → Integral nbas l a b c d x →
      (∀ l' ∈ w, ∀ x', ¬ Integral nbas l' a b c d x') → T (a, b, c, d) = 4 * x) ∧
    ((∀ l ∈ file, ∀ x, ¬ Integral nbas l a b c d x) → T (a, b, c, d) = 0) := by
  unfold read_tei at h
  constructor
  · rintro u w l x rfl hl hw
    obtain ⟨U, hU, h2⟩ := readTeiLines_append _ _ _ _ _ h
    simp only [readTeiLines] at h2
    split at h2
    · simp at h2
    · rename_i V hV
      rw [readTeiLines_other nbas V T w h2 a b c d hw]
      obtain ⟨a', b', c', d', x', -, hu, rfl⟩ := readTeiLine_eq nbas U V l hV
      obtain ⟨rfl, rfl, rfl, rfl, rfl⟩ := hu a b c d x hl
      simp [store]
  · intro hn
    exact readTeiLines_other nbas _ T file h a b c d hn

/-! ## C46 -/

/-- **C46** Partial: the doubles are antisymmetric after reading any file that is read without an exception, provided
every doubles record addresses two different virtual and two different occupied positions. Without the condition the
claim is false (`C46_violated`). -/
theorem C46_antisymmetric_partial (nocc nvirt : ℕ) (file : List (Line K)) (B : Amps K)
    (h : read_tamps nocc nvirt file = .ok B)
    (hd : ∀ l ∈ records file, ∀ a b i j x, Doubles nocc nvirt l a b i j x → a ≠ b ∧ i ≠ j) (a b i j : ℕ) :
    B.t2 (b, a, i, j) = - B.t2 (a, b, i, j) ∧ B.t2 (a, b, j, i) = - B.t2 (a, b, i, j) := by
  rcases read_tamps_records nocc nvirt file B h with ⟨-, -, he⟩ | h
  · simp [he]
  · clear * - h hd
    have : ∀ (ls : List (Line K)) (A : Amps K), A.read = true →
        (∀ a b i j, A.t2 (b, a, i, j) = - A.t2 (a, b, i, j) ∧ A.t2 (a, b, j, i) = - A.t2 (a, b, i, j)) →
        (∀ l ∈ ls, ∀ a b i j x, Doubles nocc nvirt l a b i j x → a ≠ b ∧ i ≠ j) →
        readLines nocc nvirt A ls = .ok B →
        ∀ a b i j, B.t2 (b, a, i, j) = - B.t2 (a, b, i, j) ∧ B.t2 (a, b, j, i) = - B.t2 (a, b, i, j) := by
      intro ls
      induction ls with
      | nil => intro A _ hA _ h; simp [readLines] at h; rw [← h]; exact hA
      | cons l ls ih =>
        intro A hr hA hd h
        simp only [readLines] at h
        split at h
        · simp at h
        · rename_i C hC
          obtain ⟨hr', E, hE, -, e2⟩ := readLine_read nocc nvirt A C l hr hC
          refine ih C hr' ?_ (fun l' hl' => hd l' (List.mem_cons_of_mem _ hl')) h
          rw [← e2]
          rcases (readRecord_cases nocc nvirt A E l hE).2 with ⟨c, d, k, m, x, hx, -, -, e, -⟩ | ⟨_, _, _, _, _, _, _, e⟩
          · obtain ⟨n1, n2⟩ := hd l (List.mem_cons_self ..) c d k m x hx
            intro a b i j
            rw [e]
            by_cases hs : SamePair c d a b ∧ SamePair k m i j
            · obtain ⟨⟨rfl, rfl⟩ | ⟨rfl, rfl⟩, ⟨rfl, rfl⟩ | ⟨rfl, rfl⟩⟩ := hs <;>
                simp [store, doublesWrites, Function.update, n1, n2, n1.symm, n2.symm]
            · rw [store_same _ _ _ _ _ _ (a, b, i, j) hs, store_same, store_same]
              · exact hA a b i j
              · simp only [SamePair] at hs ⊢; tauto
              · simp only [SamePair] at hs ⊢; tauto
          · rw [e]; exact hA
    exact this _ _ rfl (fun _ _ _ _ => by simp) hd h a b i j

/-- **C46** is violated: a record with a repeated virtual index is accepted and leaves a non-zero entry `t2[a,a,i,j]`. -/
theorem C46_violated : ∃ (nocc nvirt : ℕ) (file : List (Line ℚ)) (B : Amps ℚ) (a b i j : ℕ),
    read_tamps nocc nvirt file = .ok B ∧ B.t2 (b, a, i, j) ≠ - B.t2 (a, b, i, j) :=
  ⟨2, 2, [⟨true, [], .bad, .error .valueError⟩, ⟨false, [.op 2, .op 2, .op 0, .op 1], .bad, .ok 1⟩], _, 0, 0, 0, 1, rfl,
    by decide +kernel⟩

/-- A file with a heading, two records for one quadruple (the second in another index order) and a singles record.
The later doubles record wins. -/
example : ∃ B : Amps ℚ, read_tamps 2 2 [⟨false, [.bad], .bad, .error .valueError⟩, ⟨true, [], .bad, .error .valueError⟩,
      ⟨false, [.op 2, .op 3, .op 0, .op 1, .bar], .bad, .ok 5⟩, ⟨false, [.op 3, .op 2, .op 0, .op 1, .bar], .bad, .ok 7⟩,
      ⟨false, [.op 3, .op 1, .bar], .bad, .ok 2⟩] = .ok B ∧
    B.t2 (1, 0, 0, 1) = 7 ∧ B.t2 (0, 1, 0, 1) = -7 ∧ B.t1 (1, 1) = 2 ∧ B.t1 (0, 1) = 0 :=
  ⟨_, rfl, by decide +kernel, by decide +kernel, by decide +kernel, by decide +kernel⟩

/-- An integral file whose second line overwrites the first. -/
example : ∃ T, read_tei (K := ℚ) 4 [⟨false, [.op 0, .op 1, .op 1, .op 0, .bar], .bad, .ok 3⟩,
      ⟨false, [.op 0, .op 1, .op 1, .op 0, .bar], .bad, .ok 2⟩] = .ok T ∧ T (0, 1, 1, 0) = 8 ∧ T (1, 0, 0, 1) = 0 :=
  ⟨_, rfl, by decide +kernel, by decide +kernel⟩

end Verif.Props
