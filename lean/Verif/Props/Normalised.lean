import Verif.Props.Renamed

/-!
# C56 for names with the rewritten spellings
-/

namespace Binder

open Spec

theorem nameMap_bool : ∀ p ∈ nameMap, p.1 ≠ [] ∧ WordApart c!"_Bool" p.2 := by decide +kernel

/-- The replacements of `standard_name` make no `_Bool`. -/
theorem applyNameMap_bool {s : Str} (h : ¬ c!"_Bool" <:+: s) : ¬ c!"_Bool" <:+: applyNameMap s := by
  have key : ∀ (m : List (Str × Str)), (∀ p ∈ m, p ∈ nameMap) → ∀ t, ¬ c!"_Bool" <:+: t → ¬ c!"_Bool" <:+: m.foldl (fun r p => replaceAll r p.1 p.2) t := by
    intro m
    induction m with
    | nil => exact fun _ t h => h
    | cons p m ih =>
      intro hm t ht
      have hp := nameMap_bool p (hm p List.mem_cons_self)
      refine ih (fun q hq => hm q (List.mem_cons_of_mem _ hq)) _ ?_
      refine replaceGo_holds (P := fun t => ¬ c!"_Bool" <:+: t) (frm := p.1) (to := p.2) hp.1 (fun a b h2 hi => ?_) t.length t [] (Nat.le_refl _) ht
      rcases infix_apart hp.2 hi with h3 | h3
      · exact h2 (h3.trans ⟨[], p.1 ++ b, by simp⟩)
      · exact h2 (h3.trans ⟨a ++ p.1, [], by simp⟩)
  exact key nameMap (fun _ h => h) s h

/-- **C56, part.** Normalising twice is the same as normalising once for every name without `_Bool`, with any number of spellings that are
rewritten, if none of these is left. Missing: the names that still have one afterwards, see `C56_program_false`, and `_Bool`, see
`C56_bool_false`. -/
theorem C56_normal_partial (s : Str) (hp : Plain (standardName simplifyStd s)) (hb : ¬ c!"_Bool" <:+: s) :
    standardName simplifyStd (standardName simplifyStd s) = standardName simplifyStd s := by
  refine C56_stable_partial simplifyStd s hp fun rest hr => ?_
  unfold standardName at hr
  have hb := applyNameMap_bool hb
  generalize applyNameMap s = r at hr hb
  by_cases h : beginsWith r c!"std::" = true
  · obtain ⟨x, rfl⟩ := (C58_begins_with _ _).1 h
    simp only [h, if_true] at hr
    have hx : (c!"std::" ++ x).drop 5 = x := rfl
    rw [hx] at hr
    have hno : ¬ c!"_Bool" <:+: c!"std::" ++ simplifyStd x := by
      intro hi
      have hi' : c!"_Bool" <:+: simplifyStd x := by
        rcases infix_split (a := c!"std:") (x := ':') (by decide) hi with h1 | h1
        · exact absurd h1 (not_infix_iff.2 (by decide))
        · exact h1
      have hP : ∀ p ∈ regexMap, ∀ t, ¬ c!"_Bool" <:+: t → ¬ c!"_Bool" <:+: subst p t :=
        fun p hp t ht hi => ht (subst_noNewWord hp (by decide) (by decide) (by decide) (by decide) hi)
      rcases simplifyStd_cases _ hP x (fun hi => hb (infix_append_right hi)) with ⟨t, hl, e⟩ | ⟨-, h1, -⟩
      · rw [e] at hi'
        exact (by decide +kernel : ∀ x ∈ stdTypedefMap, ∀ j, j ≤ x.2.length → ¬ c!"_Bool" <+: x.2.drop j) _ (lookup_mem hl) |> not_infix_iff.2 |> fun h => h hi'
      · exact h1 hi'
    rw [C17_identity _ hno] at hr
    rw [← List.append_cancel_left hr]
    exact C77_stable x
  · simp only [h, if_false, Bool.false_eq_true] at hr
    rw [C17_identity _ hb] at hr
    exact absurd ((C58_begins_with _ _).2 ⟨rest, hr⟩) h

/-- The hypotheses of `C56_normal_partial` are met: a name with four of the rewritten spellings. -/
example : standardName simplifyStd c!"std::__1::vector<class std::__cxx11::basic_string<char>,std::allocator<class std::__1::basic_string<char>>>" =
      c!"std::vector<std::string>" ∧ Plain c!"std::vector<std::string>" ∧
    ¬ c!"_Bool" <:+: c!"std::__1::vector<class std::__cxx11::basic_string<char>,std::allocator<class std::__1::basic_string<char>>>" := by
  have plain : ∀ s : Str, (∀ p ∈ rewritten, ∀ j, j ≤ s.length → ¬ p <+: s.drop j) → Plain s := fun s h p hp => not_infix_iff.2 (h p hp)
  refine ⟨?_, plain _ (by decide +kernel), not_infix_iff.2 (by decide +kernel)⟩
  unfold standardName
  simp only [simplify_quick]
  decide +kernel

/-- **C56 is false** for a name with `_Bool`, since this is replaced after the default arguments have been looked for: the allocator is dropped
only the second time. -/
theorem C56_bool_false : ¬ ∀ s : Str, Plain s → Plain (standardName simplifyStd s) →
    standardName simplifyStd (standardName simplifyStd s) = standardName simplifyStd s := by
  intro h
  have plain : ∀ s : Str, (∀ p ∈ rewritten, ∀ j, j ≤ s.length → ¬ p <+: s.drop j) → Plain s := fun s h p hp => not_infix_iff.2 (h p hp)
  have e1 : standardName simplifyStd c!"std::vector<_Bool,std::allocator<bool>>" = c!"std::vector<bool,std::allocator<bool>>" := by
    unfold standardName
    simp only [simplify_quick]
    decide +kernel
  have e2 : standardName simplifyStd c!"std::vector<bool,std::allocator<bool>>" = c!"std::vector<bool>" := by
    unfold standardName
    simp only [simplify_quick]
    decide +kernel
  have := h c!"std::vector<_Bool,std::allocator<bool>>" (plain _ (by decide +kernel)) (by rw [e1]; exact plain _ (by decide +kernel))
  rw [e1, e2] at this
  exact absurd this (by decide)

end Binder
