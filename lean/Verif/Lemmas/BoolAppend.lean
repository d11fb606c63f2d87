import Verif.Lemmas.Bool
import Verif.Model.Names

/-! `fix_boolean_types` works piecewise: separators that cannot be part of a word cut the string into independent pieces. -/

namespace Binder

open Cxx

/-- A character that neither occurs in `_Bool` nor is a letter or digit. -/
def isSep (c : Char) : Bool := !isAlpha c && !isDigit c && c != '_'

theorem isSep_ne {c : Char} (h : isSep c = true) : c ≠ '_' := by
  rintro rfl; revert h; decide

theorem isSep_alnum {c : Char} (h : isSep c = true) : alnumOpt (some c) = false := by
  simp only [isSep, Bool.and_eq_true, Bool.not_eq_true'] at h
  simp [alnumOpt, h.1.1, h.1.2]

theorem isSep_not_mem {c : Char} (h : isSep c = true) : c ∉ boolName := by
  intro hm
  simp only [boolName, List.mem_cons, List.not_mem_nil, or_false] at hm
  rcases hm with rfl | rfl | rfl | rfl | rfl <;> revert h <;> decide

theorem boolMatch_congr {p q : Option Char} (h : alnumOpt p = alnumOpt q) (s : Str) : boolMatch p s = boolMatch q s := by
  simp [boolMatch, h]

theorem fixBoolGo_congr {p q : Option Char} (h : alnumOpt p = alnumOpt q) (s : Str) : fixBoolGo p 0 s = fixBoolGo q 0 s := by
  cases s with
  | nil => simp [fixBoolGo]
  | cons c cs => simp only [fixBoolGo, h]

theorem boolMatch_append {p : Option Char} {c : Char} (h : isSep c = true) (a b : Str) (ha : a ≠ []) :
    boolMatch p (a ++ c :: b) = boolMatch p a := by
  by_cases hp : boolName <+: a
  · obtain ⟨r, rfl⟩ := hp
    simp only [boolMatch]
    have e1 : boolName.isPrefixOf (boolName ++ r ++ c :: b) = true := by
      rw [List.isPrefixOf_iff_prefix, List.append_assoc]; exact List.prefix_append _ _
    have e2 : boolName.isPrefixOf (boolName ++ r) = true := by
      rw [List.isPrefixOf_iff_prefix]; exact List.prefix_append _ _
    rw [e1, e2]
    congr 2
    cases r with
    | nil => simp [isSep_alnum h]; simp [alnumOpt]
    | cons d r => simp
  · have hp' : ¬ boolName <+: a ++ c :: b := by
      intro hpre
      rcases List.prefix_or_prefix_of_prefix hpre (List.prefix_append a (c :: b)) with h1 | h1
      · exact hp h1
      · obtain ⟨r, hr⟩ := h1
        obtain ⟨t, ht⟩ := hpre
        rw [← hr, List.append_assoc] at ht
        have := List.append_cancel_left ht
        cases r with
        | nil => rw [← hr] at hp; simp at hp
        | cons d r =>
          simp only [List.cons_append, List.cons.injEq] at this
          apply isSep_not_mem h
          rw [← hr, ← this.1]
          simp
    rw [boolMatch_of_not_prefix hp, boolMatch_of_not_prefix hp']

theorem fixBoolGo_append_sep {c : Char} (h : isSep c = true) : ∀ (n : Nat) (a b : Str) (p : Option Char), a.length ≤ n →
    fixBoolGo p 0 (a ++ c :: b) = fixBoolGo p 0 a ++ c :: fixBoolGo none 0 b := by
  intro n
  induction n with
  | zero =>
    intro a b p hn
    have : a = [] := List.length_eq_zero_iff.1 (by omega)
    subst this
    rw [List.nil_append, fixBoolGo_miss_head (isSep_ne h)]
    simp [fixBoolGo]
    exact fixBoolGo_congr (by simp [isSep_alnum h]; simp [alnumOpt]) _
  | succ n ih =>
    intro a b p hn
    cases a with
    | nil => exact ih [] b p (by simp)
    | cons d ds =>
      cases hm : boolMatch p (d :: ds) with
      | false =>
        have hm' : boolMatch p (d :: (ds ++ c :: b)) = false := by
          have := boolMatch_append (p := p) h (d :: ds) b (by simp)
          rw [hm] at this; exact this
        rw [List.cons_append, fixBoolGo_miss hm', fixBoolGo_miss hm, ih ds b _ (by simp at hn; omega)]
        rfl
      | true =>
        obtain ⟨r, hr⟩ := boolMatch_prefix hm
        have hm' : boolMatch p (boolName ++ (r ++ c :: b)) = true := by
          have := boolMatch_append (p := p) h (d :: ds) b (by simp)
          rw [hm, hr, List.append_assoc] at this; exact this
        rw [hr] at hm ⊢
        rw [List.append_assoc, fixBoolGo_hit hm', fixBoolGo_hit hm, ih r b _ ?_]
        · simp
        · have := congrArg List.length hr
          simp [boolName] at this hn
          omega

theorem fixBool_append_sep {c : Char} (h : isSep c = true) (a b : Str) :
    fixBooleanTypes (a ++ c :: b) = fixBooleanTypes a ++ c :: fixBooleanTypes b :=
  fixBoolGo_append_sep h a.length a b none (Nat.le_refl _)

/-- A string of separators is cut off like one. -/
theorem fixBool_append_seps (s : Str) (hs : ∀ c ∈ s, isSep c = true) (hne : s ≠ []) (a b : Str) :
    fixBooleanTypes (a ++ s ++ b) = fixBooleanTypes a ++ s ++ fixBooleanTypes b := by
  induction s generalizing a with
  | nil => exact absurd rfl hne
  | cons c cs ih =>
    have hc := hs c (by simp)
    cases cs with
    | nil => simpa using fixBool_append_sep hc a b
    | cons d ds =>
      have hcs := ih (fun x hx => hs x (by simp [hx])) (by simp) []
      rw [List.append_assoc, List.cons_append, fixBool_append_sep hc]
      rw [List.nil_append] at hcs
      rw [hcs]
      simp [fixBooleanTypes, fixBoolGo]

theorem fixBool_seps_left (s : Str) (hs : ∀ c ∈ s, isSep c = true) (b : Str) :
    fixBooleanTypes (s ++ b) = s ++ fixBooleanTypes b := by
  by_cases hne : s = []
  · simp [hne]
  · simpa [fixBooleanTypes, fixBoolGo] using fixBool_append_seps s hs hne [] b

theorem fixBool_seps_right (s : Str) (hs : ∀ c ∈ s, isSep c = true) (a : Str) :
    fixBooleanTypes (a ++ s) = fixBooleanTypes a ++ s := by
  by_cases hne : s = []
  · simp [hne]
  · simpa [fixBooleanTypes, fixBoolGo] using fixBool_append_seps s hs hne a []

theorem fixBool_no_underscore (s : Str) (h : '_' ∉ s) : fixBooleanTypes s = s := by
  have : ∀ (s : Str) (p : Option Char), '_' ∉ s → fixBoolGo p 0 s = s := by
    intro s
    induction s with
    | nil => intro p _; simp [fixBoolGo]
    | cons c cs ih =>
      intro p h
      simp at h
      rw [fixBoolGo_miss_head (fun e => h.1 e.symm), ih _ h.2]
  exact this s none h

theorem fixBool_fixBool (s : Str) : fixBooleanTypes (fixBooleanTypes s) = fixBooleanTypes s :=
  fixBoolGo_idem_aux s.length s none none (Nat.le_refl _) rfl

end Binder
