import Verif.Model.Class

/-! Lemmas about the class named in statements for data members. -/

namespace Binder

open Cxx

theorem endsWith_split {s a : Str} (h : endsWith s a = true) : s = s.take (s.length - a.length) ++ a := by
  unfold endsWith at h
  split at h
  · simp at h
  · have : (s.drop (s.length - a.length)).take a.length = a := by
      simpa [Str.compareAt] using h
    have hl : (s.drop (s.length - a.length)).length ≤ a.length := by simp; omega
    rw [List.take_of_length_le hl] at this
    conv => lhs; rw [← List.take_append_drop (s.length - a.length) s, this]

theorem endsWith_append (s a : Str) : endsWith (s ++ a) a = true := by
  unfold endsWith
  rw [if_neg (by simp)]
  simp [Str.compareAt]

theorem endsWith_other {s a : Str} {c : Char} (ha : a.getLast? = some c) (hs : s.getLast? ≠ some c) : endsWith s a = false := by
  cases he : endsWith s a with
  | false => rfl
  | true =>
    exfalso
    apply hs
    rw [endsWith_split he, List.getLast?_append, ha]
    rfl

theorem stripAnonymous_named {s : Str} (h : s.getLast? ≠ some ')') : stripAnonymous s = s := by
  unfold stripAnonymous
  simp only [List.foldl_cons, List.foldl_nil]
  rw [endsWith_other (c := ')') (by decide) h]
  simp only [Bool.false_eq_true, if_false]
  rw [endsWith_other (c := ')') (by decide) h]
  simp

theorem stripAnonymous_anonymous {s : Str} (h : s.getLast? ≠ some ')') : stripAnonymous (s ++ c!"::(anonymous)") = s := by
  unfold stripAnonymous
  simp only [List.foldl_cons, List.foldl_nil]
  rw [endsWith_append, if_pos rfl]
  have : (s ++ c!"::(anonymous)").take ((s ++ c!"::(anonymous)").length - (c!"::(anonymous)").length) = s := by simp
  rw [this, endsWith_other (c := ')') (by decide) h]
  simp

theorem stripAnonymous_union {s : Str} (h : s.getLast? ≠ some ')') : stripAnonymous (s ++ "::(anonymous union)".toList) = s := by
  unfold stripAnonymous
  simp only [List.foldl_cons, List.foldl_nil]
  have h1 : endsWith (s ++ "::(anonymous union)".toList) c!"::(anonymous)" = false := by
    cases he : endsWith (s ++ "::(anonymous union)".toList) c!"::(anonymous)" with
    | false => rfl
    | true =>
      have e := congrArg List.reverse (endsWith_split he)
      rw [List.reverse_append, List.reverse_append] at e
      rw [show ("::(anonymous union)".toList).reverse = [')', 'n'] ++ "oinu suomynona(::".toList by decide,
        show (c!"::(anonymous)").reverse = [')', 's'] ++ c!"uomynona(::" by decide] at e
      simp at e
  rw [h1]
  simp only [Bool.false_eq_true, if_false]
  rw [endsWith_append, if_pos rfl]
  simp

end Binder
