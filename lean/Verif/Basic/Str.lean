/-!
# Strings

`std::string` is modelled as a list of characters, one `Char` per byte.
`c!"abc"` is the list literal `['a', 'b', 'c']`.
-/

namespace Binder

/-- A `std::string`. -/
abbrev Str := List Char

open Lean in
/-- `c!"abc"` expands to `(['a', 'b', 'c'] : Str)`. -/
macro:max "c!" s:str : term => do
  let cs : Array (TSyntax `term) := s.getString.toList.toArray.map fun ch => ⟨Syntax.mkCharLit ch⟩
  `(([$cs,*] : Binder.Str))

/-- `std::string::compare(pos, n, s) == 0` for `pos ≤ size`: the (clamped) substring equals `s`. -/
def Str.compareAt (s : Str) (pos n : Nat) (t : Str) : Bool := (s.drop pos).take n == t

/-- Position of the first occurrence of `pat` in `s` (`std::string::find(pat, 0)`); `none` is `npos`. -/
def Str.find (pat : Str) : Str → Option Nat
  | [] => if pat.isPrefixOf [] then some 0 else none
  | c :: cs => if pat.isPrefixOf (c :: cs) then some 0 else (Str.find pat cs).map (· + 1)

/-- `std::string::find(pat, pos)`: first occurrence at or after `pos`; `npos` if `pos > size`. -/
def Str.findFrom (s pat : Str) (pos : Nat) : Option Nat :=
  if pos ≤ s.length then (Str.find pat (s.drop pos)).map (· + pos) else none

/-- `std::string::rfind(pat)`: last occurrence. -/
def Str.rfind (pat : Str) : Str → Option Nat
  | [] => if pat.isPrefixOf [] then some 0 else none
  | c :: cs => match Str.rfind pat cs with
    | some i => some (i + 1)
    | none => if pat.isPrefixOf (c :: cs) then some 0 else none

/-- `std::string::replace(pos, n, t)` for `pos ≤ size`. -/
def Str.replaceAt (s : Str) (pos n : Nat) (t : Str) : Str := s.take pos ++ t ++ s.drop (pos + n)

/-- `std::string::substr(pos, n)` for `pos ≤ size`. -/
def Str.substr (s : Str) (pos n : Nat) : Str := (s.drop pos).take n

/-- `std::isalpha` in the "C" locale. -/
def isAlpha (c : Char) : Bool := (('a' ≤ c) && (c ≤ 'z')) || (('A' ≤ c) && (c ≤ 'Z'))
/-- `std::isdigit` in the "C" locale. -/
def isDigit (c : Char) : Bool := ('0' ≤ c) && (c ≤ '9')
/-- `std::isalnum` in the "C" locale. -/
def isAlnum (c : Char) : Bool := isAlpha c || isDigit c

/-- `std::to_string` of a non-negative number. -/
def natStr (n : Nat) : Str := Nat.toDigits 10 n

/-! ## Facts about `find` and `rfind` -/

theorem Str.find_some {pat s : Str} {i : Nat} (h : Str.find pat s = some i) :
    pat <+: s.drop i ∧ i ≤ s.length ∧ ∀ j, j < i → ¬ pat <+: s.drop j := by
  induction s generalizing i with
  | nil =>
    simp only [Str.find] at h
    split at h
    · simp at h; subst h; simp_all
    · simp at h
  | cons c cs ih =>
    simp only [Str.find] at h
    split at h
    · simp at h; subst h; simp_all
    · rename_i hp
      simp only [Option.map_eq_some_iff] at h
      obtain ⟨k, hk, rfl⟩ := h
      obtain ⟨h1, h2, h3⟩ := ih hk
      refine ⟨by simpa using h1, by simp; omega, ?_⟩
      intro j hj
      cases j with
      | zero => simpa using hp
      | succ j => simpa using h3 j (by omega)

theorem Str.find_none {pat s : Str} (h : Str.find pat s = none) : ∀ j, j ≤ s.length → ¬ pat <+: s.drop j := by
  induction s with
  | nil =>
    simp only [Str.find] at h
    split at h
    · simp at h
    · rename_i hp; intro j hj; simpa using hp
  | cons c cs ih =>
    simp only [Str.find] at h
    split at h
    · simp at h
    · rename_i hp
      simp only [Option.map_eq_none_iff] at h
      intro j hj
      cases j with
      | zero => simpa using hp
      | succ j => simpa using ih h j (by simpa using hj)

theorem Str.find_eq_some_iff {pat s : Str} {i : Nat} :
    Str.find pat s = some i ↔ pat <+: s.drop i ∧ i ≤ s.length ∧ ∀ j, j < i → ¬ pat <+: s.drop j := by
  refine ⟨Str.find_some, ?_⟩
  rintro ⟨h1, h2, h3⟩
  cases hf : Str.find pat s with
  | none => exact absurd h1 (Str.find_none hf i h2)
  | some k =>
    obtain ⟨k1, k2, k3⟩ := Str.find_some hf
    congr 1
    rcases Nat.lt_trichotomy k i with h | h | h
    · exact absurd k1 (h3 k h)
    · exact h
    · exact absurd h1 (k3 i h)

theorem Str.find_eq_none_iff {pat s : Str} :
    Str.find pat s = none ↔ ∀ j, j ≤ s.length → ¬ pat <+: s.drop j := by
  refine ⟨Str.find_none, ?_⟩
  intro h
  cases hf : Str.find pat s with
  | none => rfl
  | some k =>
    obtain ⟨k1, k2, _⟩ := Str.find_some hf
    exact absurd k1 (h k k2)

theorem Str.findFrom_eq_some_iff {s pat : Str} {pos i : Nat} :
    Str.findFrom s pat pos = some i ↔
      pos ≤ i ∧ i ≤ s.length ∧ pat <+: s.drop i ∧ ∀ j, pos ≤ j → j < i → ¬ pat <+: s.drop j := by
  unfold Str.findFrom
  split
  · rename_i hpos
    simp only [Option.map_eq_some_iff, Str.find_eq_some_iff, List.drop_drop, List.length_drop]
    constructor
    · rintro ⟨k, ⟨h1, h2, h3⟩, rfl⟩
      refine ⟨by omega, by omega, by rwa [Nat.add_comm] , ?_⟩
      intro j hj hlt
      have := h3 (j - pos) (by omega)
      rwa [show pos + (j - pos) = j by omega] at this
    · rintro ⟨h1, h2, h3, h4⟩
      refine ⟨i - pos, ⟨?_, by omega, ?_⟩, by omega⟩
      · rwa [show pos + (i - pos) = i by omega]
      · intro j hj
        exact h4 (pos + j) (by omega) (by omega)
  · rename_i hpos
    constructor
    · simp
    · rintro ⟨h1, h2, _, _⟩; omega

theorem Str.findFrom_eq_none_iff {s pat : Str} {pos : Nat} :
    Str.findFrom s pat pos = none ↔ ∀ j, pos ≤ j → j ≤ s.length → ¬ pat <+: s.drop j := by
  unfold Str.findFrom
  split
  · rename_i hpos
    simp only [Option.map_eq_none_iff, Str.find_eq_none_iff, List.drop_drop, List.length_drop]
    constructor
    · intro h j hj hl
      have := h (j - pos) (by omega)
      rwa [show pos + (j - pos) = j by omega] at this
    · intro h j hj
      exact h (pos + j) (by omega) (by omega)
  · simp; intro j hj hl; omega

theorem Str.rfind_some {pat s : Str} {i : Nat} (h : Str.rfind pat s = some i) :
    pat <+: s.drop i ∧ i ≤ s.length ∧ ∀ j, i < j → j ≤ s.length → ¬ pat <+: s.drop j := by
  induction s generalizing i with
  | nil =>
    simp only [Str.rfind] at h
    split at h
    · simp at h; subst h; rename_i hp; refine ⟨by simpa using hp, by simp, ?_⟩
      intro j hj hl; simp at hl; omega
    · simp at h
  | cons c cs ih =>
    simp only [Str.rfind] at h
    split at h
    · rename_i k hk
      simp at h; subst h
      obtain ⟨h1, h2, h3⟩ := ih hk
      refine ⟨by simpa using h1, by simp; omega, ?_⟩
      intro j hj hl
      cases j with
      | zero => omega
      | succ j => simpa using h3 j (by omega) (by simpa using hl)
    · rename_i hk
      split at h
      · rename_i hp
        simp at h; subst h
        refine ⟨by simpa using hp, by simp, ?_⟩
        intro j hj hl
        cases j with
        | zero => omega
        | succ j =>
          have hnone : ∀ (t : Str), Str.rfind pat t = none → ∀ j, j ≤ t.length → ¬ pat <+: t.drop j := by
            intro t
            induction t with
            | nil => simp only [Str.rfind]; intro h j _; split at h <;> simp_all
            | cons d ds ihd =>
              simp only [Str.rfind]
              intro h j hj
              split at h
              · simp at h
              · split at h
                · simp at h
                · rename_i hd hpd
                  cases j with
                  | zero => simpa using hpd
                  | succ j => simpa using ihd hd j (by simpa using hj)
          simpa using hnone cs hk j (by simpa using hl)
      · simp at h

theorem Str.rfind_none {pat s : Str} (h : Str.rfind pat s = none) : ∀ j, j ≤ s.length → ¬ pat <+: s.drop j := by
  induction s with
  | nil => simp only [Str.rfind] at h; intro j _; split at h <;> simp_all
  | cons d ds ihd =>
    simp only [Str.rfind] at h
    intro j hj
    split at h
    · simp at h
    · split at h
      · simp at h
      · rename_i hd hpd
        cases j with
        | zero => simpa using hpd
        | succ j => simpa using ihd hd j (by simpa using hj)

theorem Str.rfind_eq_none_iff {pat s : Str} :
    Str.rfind pat s = none ↔ ∀ j, j ≤ s.length → ¬ pat <+: s.drop j := by
  refine ⟨Str.rfind_none, ?_⟩
  intro h
  cases hf : Str.rfind pat s with
  | none => rfl
  | some k => obtain ⟨k1, k2, _⟩ := Str.rfind_some hf; exact absurd k1 (h k k2)

theorem Str.rfind_eq_some_iff {pat s : Str} {i : Nat} :
    Str.rfind pat s = some i ↔
      pat <+: s.drop i ∧ i ≤ s.length ∧ ∀ j, i < j → j ≤ s.length → ¬ pat <+: s.drop j := by
  refine ⟨Str.rfind_some, ?_⟩
  rintro ⟨h1, h2, h3⟩
  cases hf : Str.rfind pat s with
  | none => exact absurd h1 (Str.rfind_none hf i h2)
  | some k =>
    obtain ⟨k1, k2, k3⟩ := Str.rfind_some hf
    congr 1
    rcases Nat.lt_trichotomy k i with h | h | h
    · exact absurd h1 (k3 i h h2)
    · exact h
    · exact absurd k1 (h3 k h k2)

end Binder
