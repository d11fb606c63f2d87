import Verif.Lemmas.BoolAppend
import Verif.Lemmas.Mangle
import Verif.Model.StlBinders
import Verif.Spec.StlBinders

/-! Lemmas about the texts passed to the shipped binders. -/

namespace Binder

open Cxx Spec

theorem mangleStep_append {r s : Str} (hs : s ≠ []) (c : Char) : mangleStep (r ++ s) c = r ++ mangleStep s c := by
  unfold mangleStep
  have h1 : (r ++ s).isEmpty = s.isEmpty := by cases s <;> simp_all
  have h2 : (r ++ s).getLast? = s.getLast? := by
    rw [List.getLast?_append]; cases h : s.getLast? <;> simp_all
  rw [h1, h2]
  split
  · split <;> simp
  · simp

theorem mangleLoop_append {r s : Str} (hs : s ≠ []) (t : Str) : mangleLoop (r ++ s) t = r ++ mangleLoop s t := by
  simp only [mangleLoop_eq_foldl]
  induction t generalizing s with
  | nil => rfl
  | cons c t ih =>
    rw [List.foldl_cons, List.foldl_cons, mangleStep_append hs, ih]
    unfold mangleStep
    split
    · split <;> simp [hs]
    · simp

/-- A name that does not start with a separator is treated the same way wherever it stands. -/
theorem mangleLoop_start {t : Str} (h : ∃ c, t.head? = some c ∧ isMangleSep c = false) (r : Str) :
    mangleLoop r t = r ++ mangleLoop [] t := by
  obtain ⟨c, hc, hs⟩ := h
  cases t with
  | nil => simp at hc
  | cons d t =>
    simp at hc; subst hc
    simp only [mangleLoop, hs, Bool.false_eq_true, if_false, List.nil_append]
    rw [mangleLoop_append (by simp)]

theorem mangleLoop_split (r s t : Str) : mangleLoop r (s ++ t) = mangleLoop (mangleLoop r s) t := by
  simp [mangleLoop_eq_foldl]

/-- The last character. -/
theorem mangleLoop_last {t : Str} {c : Char} (h : t.getLast? = some c) (hs : isMangleSep c = false) (r : Str) :
    (mangleLoop r t).getLast? = some c := by
  obtain ⟨t', rfl⟩ := List.getLast?_eq_some_iff.1 h
  rw [mangleLoop_split]
  simp [mangleLoop, hs]

theorem identChar_not_sep {c : Char} (h : IdentChar c = true) : isMangleSep c = false := by
  cases hs : isMangleSep c with
  | false => rfl
  | true =>
    simp only [isMangleSep, Bool.or_eq_true, beq_iff_eq] at hs
    rcases hs with (((rfl | rfl) | rfl) | rfl) | rfl <;> revert h <;> decide

theorem identChar_alnumOpt {c : Char} (h : IdentChar c = true) (hu : c ≠ '_') : alnumOpt (some c) = true := by
  rw [identChar_alnum] at h
  simpa [alnumOpt, hu] using h

/-- A word that ends before an underscore is treated the same way as at the end of the text. -/
theorem boolMatch_append_underscore {p : Option Char} (a b : Str) (ha : ∃ c, a.getLast? = some c ∧ c ≠ '_') :
    boolMatch p (a ++ '_' :: b) = boolMatch p a := by
  by_cases hp : boolName <+: a
  · obtain ⟨r, rfl⟩ := hp
    simp only [boolMatch]
    have e1 : boolName.isPrefixOf (boolName ++ r ++ '_' :: b) = true := by
      rw [List.isPrefixOf_iff_prefix, List.append_assoc]; exact List.prefix_append _ _
    have e2 : boolName.isPrefixOf (boolName ++ r) = true := by
      rw [List.isPrefixOf_iff_prefix]; exact List.prefix_append _ _
    rw [e1, e2]
    congr 2
    cases r with
    | nil => simp; decide
    | cons d r => simp
  · have hp' : ¬ boolName <+: a ++ '_' :: b := by
      intro hpre
      rcases List.prefix_or_prefix_of_prefix hpre (List.prefix_append a ('_' :: b)) with h1 | h1
      · exact hp h1
      · obtain ⟨r, hr⟩ := h1
        obtain ⟨t, ht⟩ := hpre
        rw [← hr, List.append_assoc] at ht
        have := List.append_cancel_left ht
        cases r with
        | nil => rw [← hr] at hp; simp at hp
        | cons d r =>
          simp only [List.cons_append, List.cons.injEq] at this
          obtain ⟨c, hc, hu⟩ := ha
          cases a with
          | nil => simp at hc
          | cons x a =>
            have : d ∈ c!"Bool" := by
              simp only [boolName, List.cons_append, List.cons.injEq] at hr
              rw [← hr.2]; simp
            rw [‹d = '_' ∧ _›.1] at this
            revert this; decide
    rw [boolMatch_of_not_prefix hp, boolMatch_of_not_prefix hp']

theorem fixBoolGo_append_underscore : ∀ (n : Nat) (a b : Str) (p : Option Char), a.length ≤ n →
    (a = [] → alnumOpt p = true) → (∀ c, a.getLast? = some c → alnumOpt (some c) = true) →
    fixBoolGo p 0 (a ++ '_' :: b) = fixBoolGo p 0 a ++ '_' :: fixBoolGo none 0 b := by
  intro n
  induction n with
  | zero =>
    intro a b p hn hp _
    have : a = [] := List.length_eq_zero_iff.1 (by omega)
    subst this
    have hm : boolMatch p ('_' :: b) = false := by simp [boolMatch, hp rfl]
    rw [List.nil_append, fixBoolGo_miss hm]
    simp [fixBoolGo]
    exact fixBoolGo_congr (by decide) _
  | succ n ih =>
    intro a b p hn hp hl
    cases a with
    | nil => exact ih [] b p (by simp) hp hl
    | cons d ds =>
      have hne : ∃ c, (d :: ds).getLast? = some c ∧ c ≠ '_' := by
        refine ⟨(d :: ds).getLast (by simp), List.getLast?_eq_some_getLast _, ?_⟩
        intro e
        have := hl _ (List.getLast?_eq_some_getLast (by simp))
        rw [e] at this; revert this; decide
      cases hm : boolMatch p (d :: ds) with
      | false =>
        have hm' : boolMatch p (d :: (ds ++ '_' :: b)) = false := by
          have := boolMatch_append_underscore (p := p) (d :: ds) b hne
          rw [hm] at this; exact this
        rw [List.cons_append, fixBoolGo_miss hm', fixBoolGo_miss hm, ih ds b _ (by simp at hn; omega)]
        · rfl
        · rintro rfl; exact hl d (by simp)
        · intro c hc
          apply hl
          cases ds with
          | nil => simp at hc
          | cons e ds => rw [List.getLast?_cons_cons]; exact hc
      | true =>
        obtain ⟨r, hr⟩ := boolMatch_prefix hm
        have hm' : boolMatch p (boolName ++ (r ++ '_' :: b)) = true := by
          have := boolMatch_append_underscore (p := p) (d :: ds) b hne
          rw [hm, hr, List.append_assoc] at this; exact this
        rw [hr] at hm hl ⊢
        rw [List.append_assoc, fixBoolGo_hit hm', fixBoolGo_hit hm, ih r b _ ?_ (fun _ => by decide) ?_]
        · simp
        · have := congrArg List.length hr
          simp [boolName] at this hn
          omega
        · intro c hc
          apply hl
          rw [List.getLast?_append, hc]; rfl

/-- `fix_boolean_types` of a text cut at an underscore behind a letter or digit. -/
theorem fixBool_append_underscore {a : Str} (h : ∃ c, a.getLast? = some c ∧ alnumOpt (some c) = true) (b : Str) :
    fixBooleanTypes (a ++ '_' :: b) = fixBooleanTypes a ++ '_' :: fixBooleanTypes b := by
  obtain ⟨c, hc, ha⟩ := h
  apply fixBoolGo_append_underscore a.length a b none (Nat.le_refl _)
  · rintro rfl; simp at hc
  · intro d hd; rw [hc] at hd; cases hd; exact ha

end Binder
