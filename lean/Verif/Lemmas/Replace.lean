import Verif.Model.Util
import Verif.Spec.Strings

/-! Lemmas about `replace`. -/

namespace Binder

open Spec

theorem drop_add_append {α : Type} (a b : List α) (k : Nat) : (a ++ b).drop (a.length + k) = b.drop k := by
  rw [← List.drop_drop]; simp

theorem take_add_append {α : Type} (a b : List α) (k : Nat) : (a ++ b).take (a.length + k) = a ++ b.take k := by
  rw [List.take_append]; simp [List.take_of_length_le]

theorem length_pos_of_ne {α : Type} {l : List α} (h : l ≠ []) : 0 < l.length := by
  cases l with
  | nil => exact absurd rfl h
  | cons _ _ => simp

theorem replaceGo_eq_drop (frm to : Str) (k : Nat) (s : Str) :
    replaceGo frm to k s = replaceGo frm to 0 (s.drop k) := by
  induction k generalizing s with
  | zero => simp
  | succ k ih =>
    cases s with
    | nil => simp [replaceGo]
    | cons c cs => simp [replaceGo, ih cs]

theorem replaceGo_hit {frm to rest : Str} (hne : frm ≠ []) :
    replaceGo frm to 0 (frm ++ rest) = to ++ replaceGo frm to 0 rest := by
  cases frm with
  | nil => contradiction
  | cons f fs =>
    have hp : (f :: fs).isPrefixOf (f :: (fs ++ rest)) = true := by
      rw [List.isPrefixOf_iff_prefix]; exact ⟨rest, by simp⟩
    simp only [List.cons_append, replaceGo, hp, if_true]
    rw [replaceGo_eq_drop]; simp

theorem replaceGo_miss {frm to : Str} {c : Char} {cs : Str} (h : ¬ frm <+: c :: cs) :
    replaceGo frm to 0 (c :: cs) = c :: replaceGo frm to 0 cs := by
  simp only [replaceGo]
  rw [if_neg]
  rwa [List.isPrefixOf_iff_prefix]

theorem replaceGo_skip {frm to : Str} (x s : Str)
    (h : ∀ j, j < x.length → ¬ frm <+: (x ++ s).drop j) :
    replaceGo frm to 0 (x ++ s) = x ++ replaceGo frm to 0 s := by
  induction x with
  | nil => simp
  | cons c cs ih =>
    have h0 := h 0 (by simp)
    simp only [List.cons_append, List.drop_zero] at h0 ⊢
    rw [replaceGo_miss h0, ih]
    intro j hj
    simpa using h (j + 1) (by simpa using hj)

theorem replaceGo_none {frm to : Str} (s : Str) (h : ∀ j, j < s.length → ¬ frm <+: s.drop j) :
    replaceGo frm to 0 s = s := by
  have := replaceGo_skip (frm := frm) (to := to) s [] (by simpa using h)
  simpa [replaceGo] using this

theorem not_infix_iff {p s : Str} : ¬ p <:+: s ↔ ∀ j, j ≤ s.length → ¬ p <+: s.drop j := by
  constructor
  · intro h j _ hp
    exact h (hp.isInfix.trans (List.drop_suffix j s).isInfix)
  · intro h hi
    obtain ⟨a, b, hab⟩ := hi
    apply h a.length
    · rw [← hab]; simp only [List.length_append]; omega
    · refine ⟨b, ?_⟩; rw [← hab]; simp

/-- The loop, started at `i` with the part before `i` finished, returns the scan of the rest. -/
theorem replace_loop_aux {frm to : Str} (hne : frm ≠ []) :
    ∀ (n : Nat) (done s : Str), s.length ≤ n →
      Loop.Returns (replaceStep frm to) (done ++ s, done.length) (done ++ replaceGo frm to 0 s) := by
  intro n
  induction n with
  | zero =>
    intro done s hs
    have : s = [] := by cases s <;> simp_all
    subst this
    have hstep : replaceStep frm to (done ++ [], done.length) = .inr (done ++ []) := by
      have hnone : Str.findFrom (done ++ []) frm done.length = none := by
        rw [Str.findFrom_eq_none_iff]
        intro j h1 h2
        simp only [List.append_nil] at h2 ⊢
        have : j = done.length := by omega
        subst this
        simp [hne]
      simp only [replaceStep, hnone]
    simpa [replaceGo] using Loop.returns_of_inr hstep
  | succ n ih =>
    intro done s hs
    cases hf : Str.findFrom (done ++ s) frm done.length with
    | none =>
      have hstep : replaceStep frm to (done ++ s, done.length) = .inr (done ++ s) := by
        simp only [replaceStep, hf]
      rw [Str.findFrom_eq_none_iff] at hf
      have : replaceGo frm to 0 s = s := by
        apply replaceGo_none
        intro j hj
        have := hf (done.length + j) (by omega) (by simp; omega)
        rwa [drop_add_append] at this
      rw [this]
      exact Loop.returns_of_inr hstep
    | some j =>
      have hstep : replaceStep frm to (done ++ s, done.length) =
          .inl (Str.replaceAt (done ++ s) j frm.length to, j + to.length) := by
        simp only [replaceStep, hf]
      rw [Str.findFrom_eq_some_iff] at hf
      obtain ⟨h1, h2, ⟨rest, h3⟩, h4⟩ := hf
      obtain ⟨k, rfl⟩ : ∃ k, j = done.length + k := ⟨j - done.length, by omega⟩
      have h3' : s.drop k = frm ++ rest := by
        rw [drop_add_append] at h3
        exact h3.symm
      have hsplit : s = s.take k ++ (frm ++ rest) := by rw [← h3', List.take_append_drop]
      have hk : k ≤ s.length := by simp at h2; omega
      have hlen : (s.take k).length = k := by simp [hk]
      have hrep : Str.replaceAt (done ++ s) (done.length + k) frm.length to
          = (done ++ s.take k ++ to) ++ rest := by
        unfold Str.replaceAt
        have e1 : (done ++ s).take (done.length + k) = done ++ s.take k := take_add_append _ _ _
        have e2 : (done ++ s).drop (done.length + k + frm.length) = rest := by
          have : (done ++ s).drop (done.length + k) = frm ++ rest := by
            rw [drop_add_append]; exact h3'
          rw [← List.drop_drop, this]; simp
        rw [e1, e2]
      have hpos : done.length + k + to.length = (done ++ s.take k ++ to).length := by
        simp [hk]; omega
      have hrest : rest.length ≤ n := by
        have hfl : 0 < frm.length := length_pos_of_ne hne
        have := congrArg List.length hsplit
        simp at this
        omega
      have hih := ih (done ++ s.take k ++ to) rest hrest
      have hres : done ++ replaceGo frm to 0 s = (done ++ s.take k ++ to) ++ replaceGo frm to 0 rest := by
        have hs : replaceGo frm to 0 s = s.take k ++ replaceGo frm to 0 (frm ++ rest) := by
          conv => lhs; rw [hsplit]
          apply replaceGo_skip
          intro j hj
          rw [← hsplit]
          have := h4 (done.length + j) (by omega) (by omega)
          rwa [drop_add_append] at this
        rw [hs, replaceGo_hit hne]
        simp
      rw [hres]
      apply Loop.returns_of_inl hstep
      rw [hrep, hpos]
      exact hih

theorem substitutes_replaceGo {frm to : Str} (hne : frm ≠ []) :
    ∀ (n : Nat) (s : Str), s.length ≤ n → Substitutes frm to s (replaceGo frm to 0 s) := by
  intro n
  induction n with
  | zero =>
    intro s hs
    have : s = [] := by cases s <;> simp_all
    subst this
    refine Substitutes.done _ ?_
    intro h
    exact hne (by simpa using h)
  | succ n ih =>
    intro s hs
    cases hf : Str.find frm s with
    | none =>
      rw [Str.find_eq_none_iff] at hf
      rw [replaceGo_none s (fun j hj => hf j (by omega))]
      exact Substitutes.done s (not_infix_iff.mpr hf)
    | some k =>
      rw [Str.find_eq_some_iff] at hf
      obtain ⟨⟨rest, h1⟩, h2, h3⟩ := hf
      have hsplit : s = s.take k ++ frm ++ rest := by
        rw [List.append_assoc, h1, List.take_append_drop]
      have hrest : rest.length ≤ n := by
        have hfl : 0 < frm.length := length_pos_of_ne hne
        have := congrArg List.length hsplit
        simp at this
        omega
      have hlen : (s.take k).length = k := by simp [h2]
      have hres : replaceGo frm to 0 s = s.take k ++ to ++ replaceGo frm to 0 rest := by
        have hs : replaceGo frm to 0 s = s.take k ++ replaceGo frm to 0 (frm ++ rest) := by
          conv => lhs; rw [hsplit, List.append_assoc]
          apply replaceGo_skip
          intro j hj
          rw [← List.append_assoc, ← hsplit]
          exact h3 j (by omega)
        rw [hs, replaceGo_hit hne]
        simp
      rw [hres]
      conv => lhs; rw [hsplit]
      refine Substitutes.hit _ _ _ ?_ (ih rest hrest)
      intro j hj
      rw [← hsplit]
      exact h3 j (by omega)

theorem substitutes_unique_aux {p q : Str} (hne : p ≠ []) :
    ∀ {s r : Str}, Substitutes p q s r → r = replaceGo p q 0 s := by
  intro s r h
  induction h with
  | done s hs =>
    rw [replaceGo_none]
    intro j hj
    exact (not_infix_iff.mp hs) j (by omega)
  | hit x rest out first _ ih =>
    rw [List.append_assoc x p rest, replaceGo_skip, replaceGo_hit hne, ih]
    · simp
    · simpa using first

/-- One-character patterns: `replaceAll` is a `flatMap`. -/
theorem replaceAll_single (c : Char) (to s : Str) :
    replaceAll s [c] to = s.flatMap fun d => if d = c then to else [d] := by
  unfold replaceAll
  induction s with
  | nil => simp [replaceGo]
  | cons d ds ih =>
    by_cases h : d = c
    · subst h
      have := replaceGo_hit (frm := [d]) (to := to) (rest := ds) (by simp)
      simp only [List.singleton_append] at this
      rw [this, ih]; simp
    · rw [replaceGo_miss, ih]
      · simp [h]
      · rintro ⟨t, ht⟩; simp at ht; exact h ht.1.symm

/-- Characters of the result come from the source or from the inserted text. -/
theorem mem_replaceGo {frm to : Str} {k : Nat} {s : Str} {c : Char} (h : c ∈ replaceGo frm to k s) : c ∈ s ∨ c ∈ to := by
  induction s generalizing k with
  | nil => simp [replaceGo] at h
  | cons d ds ih =>
    cases k with
    | succ k => simp only [replaceGo] at h; rcases ih h with h | h <;> simp [h]
    | zero =>
      simp only [replaceGo] at h
      split at h
      · simp only [List.mem_append] at h
        rcases h with h | h
        · exact .inr h
        · rcases ih h with h | h <;> simp [h]
      · simp only [List.mem_cons] at h
        rcases h with h | h
        · simp [h]
        · rcases ih h with h | h <;> simp [h]

end Binder
