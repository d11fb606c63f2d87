import Verif.Props.Function
import Verif.Spec.TrailingType

/-!
# C118: the result of a lambda
-/

namespace Binder

open Cxx Spec

theorem not_prefix_of_differ {u v : Str} (name : Str) (h : u.take (min u.length v.length) ≠ v.take (min u.length v.length)) : ¬ u <+: v ++ name := by
  intro hp
  refine h ?_
  obtain ⟨x, e⟩ := hp
  have := congrArg (List.take (min u.length v.length)) e
  rwa [List.take_append_of_le_length (by omega), List.take_append_of_le_length (by omega)] at this

/-- The two forms of a type that `SameType` relates, and what the loop over `lambdaReturnMap` does with them. -/
theorem lambdaReturn_fold {cv w name : Str} (hcv : cv ∈ [[], c!"const "]) (hw : w ∈ [[], c!"enum ", c!"class ", c!"struct "])
    (hc : ¬ c!"const " <+: name) (hn : ∀ u ∈ typeWords, ¬ u <+: name) :
    lambdaReturnMap.foldl (fun r p => if beginsWith r p.1 then p.2 ++ r.drop p.1.length else r) (cv ++ w ++ name) = cv ++ name := by
  have step : ∀ (r : Str) (p : Str × Str), (if beginsWith r p.1 then p.2 ++ r.drop p.1.length else r) = if p.1 <+: r then p.2 ++ r.drop p.1.length else r := by
    intro r p
    by_cases h : p.1 <+: r
    · rw [if_pos h, if_pos ((beginsWith_iff _ _).2 h)]
    · rw [if_neg h, if_neg (fun hb => h ((beginsWith_iff _ _).1 hb))]
  simp only [step]
  have e1 : ¬ c!"enum " <+: name := hn _ (by decide)
  have e2 : ¬ c!"class " <+: name := hn _ (by decide)
  have e3 : ¬ c!"struct " <+: name := hn _ (by decide)
  have c1 : ¬ c!"const enum " <+: name := fun h => hc (List.IsPrefix.trans ⟨c!"enum ", rfl⟩ h)
  have c2 : ¬ c!"const class " <+: name := fun h => hc (List.IsPrefix.trans ⟨c!"class ", rfl⟩ h)
  have c3 : ¬ c!"const struct " <+: name := fun h => hc (List.IsPrefix.trans ⟨c!"struct ", rfl⟩ h)
  have k1 : ¬ c!"const enum " <+: c!"const " ++ name := fun h => e1 ((List.prefix_append_right_inj c!"const ").1 h)
  have k2 : ¬ c!"const class " <+: c!"const " ++ name := fun h => e2 ((List.prefix_append_right_inj c!"const ").1 h)
  have k3 : ¬ c!"const struct " <+: c!"const " ++ name := fun h => e3 ((List.prefix_append_right_inj c!"const ").1 h)
  have yes : ∀ (p q : Str), (if p <+: p ++ name then q ++ (p ++ name).drop p.length else p ++ name) = q ++ name := by
    intro p q
    rw [if_pos (List.prefix_append ..), List.drop_left]
  simp only [lambdaReturnMap, List.foldl_cons, List.foldl_nil]
  simp only [List.mem_cons, List.not_mem_nil, or_false] at hcv hw
  rcases hcv with rfl | rfl <;> rcases hw with rfl | rfl | rfl | rfl
  · simp only [List.nil_append, if_neg e1, if_neg e2, if_neg e3, if_neg c1, if_neg c2, if_neg c3]
  · rw [List.nil_append, yes c!"enum " []]
    simp only [List.nil_append, if_neg e2, if_neg e3, if_neg c1, if_neg c2, if_neg c3]
  · rw [List.nil_append, if_neg (not_prefix_of_differ (u := c!"enum ") (v := c!"class ") name (by decide)), yes c!"class " []]
    simp only [List.nil_append, if_neg e3, if_neg c1, if_neg c2, if_neg c3]
  · rw [List.nil_append, if_neg (not_prefix_of_differ (u := c!"enum ") (v := c!"struct ") name (by decide)), if_neg (not_prefix_of_differ (u := c!"class ") (v := c!"struct ") name (by decide)), yes c!"struct " []]
    simp only [List.nil_append, if_neg c1, if_neg c2, if_neg c3]
  · rw [List.append_nil, if_neg (not_prefix_of_differ (u := c!"enum ") (v := c!"const ") name (by decide)), if_neg (not_prefix_of_differ (u := c!"class ") (v := c!"const ") name (by decide)), if_neg (not_prefix_of_differ (u := c!"struct ") (v := c!"const ") name (by decide)), if_neg k1, if_neg k2, if_neg k3]
  · rw [show c!"const " ++ c!"enum " = c!"const enum " from rfl, if_neg (not_prefix_of_differ (u := c!"enum ") (v := c!"const enum ") name (by decide)), if_neg (not_prefix_of_differ (u := c!"class ") (v := c!"const enum ") name (by decide)), if_neg (not_prefix_of_differ (u := c!"struct ") (v := c!"const enum ") name (by decide)),
      yes c!"const enum " c!"const ", if_neg k2, if_neg k3]
  · rw [show c!"const " ++ c!"class " = c!"const class " from rfl, if_neg (not_prefix_of_differ (u := c!"enum ") (v := c!"const class ") name (by decide)), if_neg (not_prefix_of_differ (u := c!"class ") (v := c!"const class ") name (by decide)), if_neg (not_prefix_of_differ (u := c!"struct ") (v := c!"const class ") name (by decide)),
      if_neg (not_prefix_of_differ (u := c!"const enum ") (v := c!"const class ") name (by decide)), yes c!"const class " c!"const ", if_neg k3]
  · rw [show c!"const " ++ c!"struct " = c!"const struct " from rfl, if_neg (not_prefix_of_differ (u := c!"enum ") (v := c!"const struct ") name (by decide)), if_neg (not_prefix_of_differ (u := c!"class ") (v := c!"const struct ") name (by decide)), if_neg (not_prefix_of_differ (u := c!"struct ") (v := c!"const struct ") name (by decide)),
      if_neg (not_prefix_of_differ (u := c!"const enum ") (v := c!"const struct ") name (by decide)), if_neg (not_prefix_of_differ (u := c!"const class ") (v := c!"const struct ") name (by decide)), yes c!"const struct " c!"const "]

theorem sameType_plain {long short : Str} (h : SameType long short) : ¬ LooksLikeDefinition short := by
  obtain ⟨cv, hcv, w, -, name, -, rfl, hc, hn⟩ := h
  rintro ⟨u, hu, h⟩
  simp only [List.mem_cons, List.not_mem_nil, or_false] at hcv
  rcases hcv with rfl | rfl
  · rcases h with h | h
    · exact hn u hu h
    · exact hc (List.IsPrefix.trans (List.prefix_append ..) h)
  · rcases h with h | h
    · have : ∀ u ∈ typeWords, u.take (min u.length 6) ≠ c!"const ".take (min u.length 6) := by decide
      exact not_prefix_of_differ name (this u hu) h
    · exact hn u hu ((List.prefix_append_right_inj c!"const ").1 h)

/-- C118, partial: let the type that a function returns be written by clang as a name, with or without `const` and one of the words `enum`, `class` and
`struct` before it. Then each lambda of the function (for a call with fewer arguments, or where no address can be used) has this type as its result, and
what is written does not look like a definition of a type. Missing: unions. -/
theorem C118_result_partial (E : Env) (F : Func) (parent : Option Nat) (lam : Bool) (k : Nat) (hk : k ≤ F.params.length)
    (hl : k < F.params.length ∨ lam = true ∨ F.isVariadic = true) {short : Str} (hs : SameType (stdTy E F.ret) short)
    (hu : ¬ c!"union " <+: stdTy E F.ret ∧ ¬ c!"const union " <+: stdTy E F.ret) :
    ∃ l : Lambda, (overloadDef E F k parent lam).callable = l.text ∧ l.ret = short ∧ ¬ LooksLikeDefinition l.ret := by
  obtain ⟨l, h1, h2, -⟩ := (forwards E F parent lam k hk).lambda hl
  have e : l.ret = short := by
    rw [h2]
    obtain ⟨cv, hcv, w, hw, name, e, rfl, hc, hn⟩ := hs
    unfold lambdaReturnType
    rw [e] at hu ⊢
    refine lambdaReturn_fold hcv ?_ hc hn
    simp only [typeWords, List.mem_cons, List.not_mem_nil, or_false] at hw hcv ⊢
    rcases hw with h | h | h | h | rfl
    · exact .inl h
    · exact .inr (.inl h)
    · exact .inr (.inr (.inl h))
    · exact .inr (.inr (.inr h))
    · rcases hcv with rfl | rfl
      · exact absurd (List.prefix_append ..) hu.1
      · exact absurd (List.prefix_append c!"const union " name) hu.2
  exact ⟨l, h1, e, e ▸ sameType_plain hs⟩

namespace Ex

def keywordName (w : Str) : Ty → Str
  | .record _ => w ++ c!"A"
  | t => exampleTyName t

/-- `A f(int x, int y = 0);` where clang writes the type with the word `w` before it. -/
def keywordFunc : Func := { exampleMethod c!"f" false (.record 0) [⟨c!"x", .basic 0, false⟩, ⟨c!"y", .basic 0, true⟩] with method := none, qname := c!"f" }

end Ex

/-- C118 is false for unions: the lambda of `union A f(int x, int y = 0)` for one argument reads `[](int const & a0) -> union A { return f(a0); }`. -/
theorem C118_union_false : SameType (stdTy { exampleEnv with tyName := Ex.keywordName c!"union " } Ex.keywordFunc.ret) c!"A" ∧
    (overloadDef { exampleEnv with tyName := Ex.keywordName c!"union " } Ex.keywordFunc 1 none false).callable =
      Lambda.text ⟨[(c!"int const & ", c!"a0")], c!"union A", c!"f", [c!"a0"]⟩ ∧ LooksLikeDefinition c!"union A" := by
  refine ⟨⟨[], by decide, c!"union ", by decide, c!"A", by decide +kernel, rfl, by decide, by decide⟩, by decide +kernel, c!"union ", by decide, .inl (by decide)⟩

/-- A function to which `C118_result_partial` applies, for each of the words. -/
example (cv w : Str) (hcv : cv ∈ [[], c!"const "]) (hw : w ∈ [[], c!"enum ", c!"class ", c!"struct "]) :
    ∃ l : Lambda, (overloadDef { exampleEnv with tyName := Ex.keywordName (cv ++ w) } Ex.keywordFunc 1 none false).callable = l.text ∧ l.ret = cv ++ c!"A" := by
  have h : ∀ cv ∈ [[], c!"const "], ∀ w ∈ [[], c!"enum ", c!"class ", c!"struct "],
      stdTy { exampleEnv with tyName := Ex.keywordName (cv ++ w) } Ex.keywordFunc.ret = cv ++ w ++ c!"A" ∧
      ¬ c!"union " <+: cv ++ w ++ c!"A" ∧ ¬ c!"const union " <+: cv ++ w ++ c!"A" ∧ w ∈ [] :: typeWords := by decide +kernel
  obtain ⟨h1, h2, h3, h4⟩ := h cv hcv w hw
  obtain ⟨l, e1, e2, -⟩ := C118_result_partial { exampleEnv with tyName := Ex.keywordName (cv ++ w) } Ex.keywordFunc none false 1 (by decide) (.inl (by decide))
    (short := cv ++ c!"A") ⟨cv, hcv, w, h4, c!"A", h1, rfl, by decide, by decide⟩ (by rw [h1]; exact ⟨h2, h3⟩)
  exact ⟨l, e1, e2⟩

end Binder
