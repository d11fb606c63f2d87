import Verif.Lemmas.Replace
import Verif.Lemmas.BoolAppend
import Verif.Spec.Memo

/-!
# Lemmas on `standard_name`
-/

namespace Binder

open Spec

theorem replaceAll_none {frm : Str} (to : Str) {s : Str} (h : ¬ frm <:+: s) : replaceAll s frm to = s :=
  replaceGo_none s fun j hj => not_infix_iff.1 h j (Nat.le_of_lt hj)

theorem foldl_replace_none (m : List (Str × Str)) {s : Str} (h : ∀ p ∈ m, ¬ p.1 <:+: s) : m.foldl (fun r p => replaceAll r p.1 p.2) s = s := by
  induction m with
  | nil => rfl
  | cons p m ih =>
    rw [List.foldl_cons, replaceAll_none _ (h p List.mem_cons_self)]
    exact ih fun q hq => h q (List.mem_cons_of_mem _ hq)

theorem nameMap_rewritten : nameMap.map Prod.fst = rewritten := by decide +kernel

theorem applyNameMap_plain {s : Str} (h : Plain s) : applyNameMap s = s :=
  foldl_replace_none _ fun p hp => h p.1 (nameMap_rewritten ▸ List.mem_map_of_mem hp)

/-- `w` and `bool` agree as far as they go. -/
def OverBool (w b : Str) : Prop := w <+: b ∨ b <+: w

instance (w b : Str) : Decidable (OverBool w b) := inferInstanceAs (Decidable (_ ∨ _))

theorem prefix_or {a b c : Str} (ha : a <+: c) (hb : b <+: c) : OverBool a b := by
  rcases Nat.le_total a.length b.length with h | h
  · exact .inl (List.prefix_of_prefix_length_le ha hb h)
  · exact .inr (List.prefix_of_prefix_length_le hb ha h)

theorem fixBoolGo_prefix : ∀ (s : Str) (q : Option Char) (p : Str), (∀ j, j < p.length → ¬ OverBool (p.drop j) c!"bool") →
    p <+: fixBoolGo q 0 s → p <+: s
  | [], q, p, _, h => h
  | c :: cs, q, p, hp, h => by
    cases p with
    | nil => exact List.nil_prefix
    | cons d p =>
      rw [fixBoolGo] at h
      split at h
      · exact absurd (prefix_or h (List.prefix_append _ _)) (hp 0 (Nat.succ_pos _))
      · obtain ⟨rfl, h⟩ := List.cons_prefix_cons.1 h
        exact List.cons_prefix_cons.2 ⟨rfl, fixBoolGo_prefix cs _ p (fun j hj => hp (j + 1) (Nat.succ_lt_succ hj)) h⟩

theorem infix_append_cases {p x y : Str} (h : p <:+: x ++ y) : (∃ j, j < x.length ∧ p <+: x.drop j ++ y) ∨ p <:+: y := by
  induction x with
  | nil => exact .inr h
  | cons a x ih =>
    rcases List.infix_cons_iff.1 h with h | h
    · exact .inl ⟨0, Nat.succ_pos _, h⟩
    · rcases ih h with ⟨j, hj, h⟩ | h
      · exact .inl ⟨j + 1, Nat.succ_lt_succ hj, h⟩
      · exact .inr h

theorem fixBoolGo_infix {p : Str} (hp : ∀ j, j < p.length → ¬ OverBool (p.drop j) c!"bool") (hb : ∀ j, j < 4 → ¬ OverBool p (c!"bool".drop j)) :
    ∀ (n : Nat) (s : Str) (q : Option Char), s.length ≤ n → p <:+: fixBoolGo q 0 s → p <:+: s
  | _, [], _, _, h => h
  | 0, _ :: _, _, hn, _ => absurd hn (Nat.not_succ_le_zero _)
  | n + 1, c :: cs, q, hn, h => by
    rw [fixBoolGo] at h
    split at h
    · rcases infix_append_cases h with ⟨j, hj, h⟩ | h
      · exact absurd (prefix_or h (List.prefix_append _ _)) (hb j hj)
      · rw [fixBoolGo_eq_drop] at h
        have := fixBoolGo_infix hp hb n _ _ (by simp only [List.length_drop, List.length_cons] at hn ⊢; omega) h
        exact (this.trans (List.drop_suffix _ _).isInfix).trans (List.suffix_cons _ _).isInfix
    · rename_i hc
      rcases List.infix_cons_iff.1 h with h | h
      · have := fixBoolGo_prefix (c :: cs) q p hp (by rw [fixBoolGo, if_neg hc]; exact h)
        exact this.isInfix
      · exact (fixBoolGo_infix hp hb n cs _ (by simp only [List.length_cons] at hn; omega) h).trans (List.suffix_cons _ _).isInfix

theorem rewritten_bool : ∀ p ∈ rewritten, (∀ j, j < p.length → ¬ OverBool (p.drop j) c!"bool") ∧ (∀ j, j < 4 → ¬ OverBool p (c!"bool".drop j)) := by
  decide +kernel

/-- `fix_boolean_types` creates none of the rewritten spellings. -/
theorem plain_fixBool {s : Str} (h : Plain s) : Plain (fixBooleanTypes s) := fun p hp hc =>
  h p hp (fixBoolGo_infix (rewritten_bool p hp).1 (rewritten_bool p hp).2 _ s none (Nat.le_refl _) hc)

/-- `fix_boolean_types` does not make a name begin with `std::`. -/
theorem fixBool_std (s : Str) (h : c!"std::" <+: fixBooleanTypes s) : c!"std::" <+: s :=
  fixBoolGo_prefix s none _ (by decide +kernel) h

end Binder
