import Verif.Model.Config
import Verif.Spec.Options
import Verif.Lemmas.ConfigRead
import Verif.Lemmas.ConfigQuery

/-!
# The options `--bind` and `--skip` (C80)
-/

namespace Binder
open Spec

theorem getlinesGo_line (l rest cur : Str) (h : '\n' ∉ l) : getlinesGo (l ++ '\n' :: rest) cur = (cur ++ l) :: getlinesGo rest [] := by
  induction l generalizing cur with
  | nil => simp [getlinesGo]
  | cons x xs ih =>
    have hx : x ≠ '\n' := fun e => h (by simp [e])
    have := ih (cur ++ [x]) (fun e => h (by simp [e]))
    simp only [List.cons_append, getlinesGo, if_neg hx, this]
    simp

theorem getlines_line (l rest : Str) (h : '\n' ∉ l) : getlines (l ++ '\n' :: rest) = l :: getlines rest := by
  simp [getlines, getlinesGo_line l rest [] h]

theorem despace_plain {n : Str} (h : ' ' ∉ n) : despace n = n := by
  unfold despace
  apply List.filter_eq_self.2
  intro a ha
  have : a ≠ ' ' := fun e => h (e ▸ ha)
  simpa using this

theorem getLast?_sign {b : Str} (h : b.getLast? ≠ some '\r') (p : Str) (hp : (p ++ c!" ").getLast? ≠ some '\r') :
    ((p ++ c!" ") ++ b).getLast? ≠ some '\r' := by
  rw [List.getLast?_append]
  cases hb : b.getLast? with
  | none => simp
  | some x => rw [hb] at h; simpa using h

theorem applyLine_bind (c : Config) {b : Str} (h : NamespaceWord b) :
    applyLine c (c!"+namespace " ++ b) = .ok { c with namespacesToBind := c.namespacesToBind ++ [b] } := by
  have h1 := getLast?_sign h.cr c!"+namespace" (by decide)
  simp only [List.cons_append, List.nil_append] at h1
  have h2 : findChar ' ' (c!"+namespace " ++ b) = some 10 := by simp [findChar]
  simp only [List.cons_append, List.nil_append] at h2
  simp only [applyLine, List.cons_append, List.nil_append, h1, if_false, List.head?, applyBody, h2]
  simp [applyToken, Str.substr, despace_plain h.space]

theorem applyLine_skip (c : Config) {b : Str} (h : NamespaceWord b) :
    applyLine c (c!"-namespace " ++ b) = .ok { c with namespacesToSkip := c.namespacesToSkip ++ [b] } := by
  have h1 := getLast?_sign h.cr c!"-namespace" (by decide)
  simp only [List.cons_append, List.nil_append] at h1
  have h2 : findChar ' ' (c!"-namespace " ++ b) = some 10 := by simp [findChar]
  simp only [List.cons_append, List.nil_append] at h2
  simp only [applyLine, List.cons_append, List.nil_append, h1, if_false, List.head?, applyBody, h2]
  simp [applyToken, Str.substr, despace_plain h.space]

theorem readConfig_bind (bs : List Str) (h : ∀ b ∈ bs, NamespaceWord b) (rest : Str) (c : Config) :
    readConfig c (bs.flatMap (fun b => c!"+namespace " ++ b ++ c!"\n") ++ rest) =
      readConfig { c with namespacesToBind := c.namespacesToBind ++ bs } rest := by
  induction bs generalizing c with
  | nil => simp
  | cons b bs ih =>
    have hb := h b (by simp)
    have hl : '\n' ∉ c!"+namespace " ++ b := by simp [hb.line]
    have e : (b :: bs).flatMap (fun b => c!"+namespace " ++ b ++ c!"\n") ++ rest =
        (c!"+namespace " ++ b) ++ '\n' :: (bs.flatMap (fun b => c!"+namespace " ++ b ++ c!"\n") ++ rest) := by simp
    rw [e, readConfig, getlines_line _ _ hl, readLines, applyLine_bind c hb]
    have := ih (fun x hx => h x (by simp [hx])) { c with namespacesToBind := c.namespacesToBind ++ [b] }
    simp only [readConfig] at this ⊢
    rw [this]
    simp

theorem readConfig_skip (bs : List Str) (h : ∀ b ∈ bs, NamespaceWord b) (rest : Str) (c : Config) :
    readConfig c (bs.flatMap (fun b => c!"-namespace " ++ b ++ c!"\n") ++ rest) =
      readConfig { c with namespacesToSkip := c.namespacesToSkip ++ bs } rest := by
  induction bs generalizing c with
  | nil => simp
  | cons b bs ih =>
    have hb := h b (by simp)
    have hl : '\n' ∉ c!"-namespace " ++ b := by simp [hb.line]
    have e : (b :: bs).flatMap (fun b => c!"-namespace " ++ b ++ c!"\n") ++ rest =
        (c!"-namespace " ++ b) ++ '\n' :: (bs.flatMap (fun b => c!"-namespace " ++ b ++ c!"\n") ++ rest) := by simp
    rw [e, readConfig, getlines_line _ _ hl, readLines, applyLine_skip c hb]
    have := ih (fun x hx => h x (by simp [hx])) { c with namespacesToSkip := c.namespacesToSkip ++ [b] }
    simp only [readConfig] at this ⊢
    rw [this]
    simp

/-- C80: the options `--bind` and `--skip` are the lines `+namespace` and `-namespace` at the head of the configuration file:
binder starts every translation unit in the same way, with the same error if the file has one. -/
theorem C80_options_are_lines (bind skip : List Str) (hb : ∀ b ∈ bind, NamespaceWord b) (hs : ∀ s ∈ skip, NamespaceWord s) (content : Str)
    (c : Config) :
    startTranslationUnit ⟨bind, skip⟩ content c = startTranslationUnit ⟨[], []⟩ (optionLines bind skip ++ content) c := by
  unfold startTranslationUnit optionLines
  rw [List.append_assoc, readConfig_bind bind hb, readConfig_skip skip hs]
  rfl

example : NamespaceWord c!"core::scoring" ∧ optionLines [c!"core"] [c!"core::io"] = c!"+namespace core\n-namespace core::io\n" :=
  ⟨⟨by decide, by decide, by decide⟩, by decide⟩

/-- What binder decides after the options `--bind b` is what the configuration file with the line decides: a sample. -/
example : (match startTranslationUnit ⟨[c!"core"], [c!"core::io"]⟩ c!"+namespace core::io::x" {} with
    | .ok c => ([c!"core", c!"core::io", c!"core::io::x", c!"other"].map fun n =>
        match namespaceBindingRequested c n with | .ok b => b | .error _ => false)
    | .error _ => []) = [true, false, true, false] := by decide +kernel

/-- C80: the file counts spaces for nothing, the options do not: with `--bind "a b"` the namespace `ab` is not asked for, with
the line `+namespace a b` it is. So the hypothesis on spaces is needed. -/
theorem C80_words_needed : ¬ ∀ bind skip content c,
    startTranslationUnit ⟨bind, skip⟩ content c = startTranslationUnit ⟨[], []⟩ (optionLines bind skip ++ content) c := by
  intro h
  have h1 := h [c!"a b"] [] [] {}
  have h2 := congrArg (fun r => match r with | .ok c => c.namespacesToBind | .error _ => []) h1
  revert h2
  decide +kernel

end Binder
