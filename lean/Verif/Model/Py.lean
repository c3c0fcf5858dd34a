import Mathlib.Data.List.Infix
import Mathlib.Data.List.Basic

/-! Small pieces of Python used by several models: `x in string`, dictionaries. -/

namespace Verif.Py

/-- `p in s` for strings, on character lists: some suffix of `s` starts with `p`. -/
def hasSubL (p : List Char) : List Char → Bool
  | [] => p.isEmpty
  | c :: cs => p.isPrefixOf (c :: cs) || hasSubL p cs

/-- Python's `p in s`. -/
def hasSub (p s : String) : Bool := hasSubL p.toList s.toList

theorem hasSubL_iff (p s : List Char) : hasSubL p s = true ↔ p <:+: s := by
  induction s with
  | nil => simp [hasSubL, List.isEmpty_iff]
  | cons c cs ih =>
    simp only [hasSubL, Bool.or_eq_true, ih, List.isPrefixOf_iff_prefix]
    rw [List.infix_cons_iff]

/-- `hasSub` is the mathematical "occurs as a contiguous substring". -/
theorem hasSub_iff (p s : String) : hasSub p s = true ↔ p.toList <:+: s.toList :=
  hasSubL_iff _ _

/-- A Python dictionary with string keys, as an association list in which `set` replaces the value of
an existing key and `get?` finds it. -/
abbrev Dict (V : Type) := List (String × V)

namespace Dict
variable {V : Type}

/-- `d.get(k)` / `d[k]` with `none` for a missing key. -/
def get? (d : Dict V) (k : String) : Option V := List.lookup k d

/-- `k in d` -/
def has (d : Dict V) (k : String) : Bool := (get? d k).isSome

/-- `d[k] = v`, also `d.update({k: v})`. -/
def set : Dict V → String → V → Dict V
  | [], k, v => [(k, v)]
  | (k', v') :: d, k, v => if k = k' then (k', v) :: d else (k', v') :: set d k v

/-- `d.update(e)` for a dictionary written as a list of pairs. -/
def update (d : Dict V) (e : List (String × V)) : Dict V := e.foldl (fun d p => set d p.1 p.2) d

theorem get?_set (d : Dict V) (k k' : String) (v : V) :
    get? (set d k v) k' = if k' = k then some v else get? d k' := by
  induction d with
  | nil =>
    by_cases h : k' = k
    · subst h; simp [set, get?]
    · have h2 : (k' == k) = false := by simpa using h
      simp [set, get?, List.lookup, h, h2]
  | cons p d ih =>
    obtain ⟨a, b⟩ := p
    by_cases h : k = a
    · subst h
      simp only [set, if_true]
      by_cases h' : k' = k
      · subst h'; simp [get?, List.lookup]
      · have : (k' == k) = false := by simpa using h'
        simp [get?, List.lookup, h', this]
    · simp only [set, if_neg h]
      by_cases h' : k' = a
      · subst h'
        have : k' ≠ k := fun e => h e.symm
        simp [get?, List.lookup, this]
      · have h2 : (k' == a) = false := by simpa using h'
        have := ih
        simp only [get?] at this
        simp [get?, List.lookup, h2, this]

theorem has_set (d : Dict V) (k k' : String) (v : V) :
    has (set d k v) k' = (decide (k' = k) || has d k') := by
  simp only [has, get?_set]
  by_cases h : k' = k <;> simp [h]

end Dict
end Verif.Py
