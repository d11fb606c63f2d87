import Verif.Spec.Literal
import Verif.Props.Comment
import Verif.Props.Queries

/-!
# C115: user-defined literals

clang names the operator of the literals `5_km` `operator""_km`. binder writes this name into string literals as it is.
-/

namespace Binder

open Cxx Spec

variable (E : Env)

theorem readStrings_char {c : Char} (h1 : c ≠ '"') (h2 : c ≠ '\\') (h3 : c ≠ '\n') (s : Str) :
    readStrings true (c :: s) = (readStrings true s).map fun x => (c :: x.1, x.2) := by
  rw [readStrings]
  · intro h; exact h1 h
  all_goals first | (intro _ h; exact absurd h h2) | (intro h; exact absurd h h3) | (intro h; exact absurd h h2)

theorem readStrings_plain {t : Str} (ht : Plain t) (s : Str) :
    readStrings true (t ++ s) = (readStrings true s).map fun x => (t ++ x.1, x.2) := by
  induction t with
  | nil => simp
  | cons c t ih =>
    obtain ⟨h1, h2, h3⟩ := ht c (by simp)
    rw [List.cons_append, readStrings_char h1 h2 h3, ih fun d hd => ht d (by simp [hd]), Option.map_map]
    rfl

theorem readStrings_docEscape (c : Char) (s : Str) :
    readStrings true (docEscape c ++ s) = (readStrings true s).map fun x => (c :: x.1, x.2) := by
  unfold docEscape
  split
  · rename_i h; subst h; rfl
  · split
    · rename_i h; subst h; rfl
    · split
      · rename_i h; subst h; rfl
      · exact readStrings_char (by assumption) (by assumption) (by assumption) s

theorem readStrings_docString (t s : Str) : readStrings true (docString t ++ s) =
    (readStrings true s).map fun x => ((t.dropWhile fun c => c == ' ' || c == '\n') ++ x.1, x.2) := by
  rw [docString_eq]
  generalize t.dropWhile (fun c => c == ' ' || c == '\n') = u
  induction u with
  | nil => simp
  | cons c u ih =>
    rw [List.flatMap_cons, List.append_assoc, readStrings_docEscape, ih, Option.map_map]
    rfl

theorem readStrings_pair (s : Str) : readStrings true (c!"\"\"" ++ s) = readStrings true s := rfl

theorem readStrings_end {s : Str} (h : s.head? = some ',' ∨ s.head? = some ')') : readStrings true ('"' :: s) = some ([], s) := by
  cases s with
  | nil => simp at h
  | cons c s =>
    simp only [List.head?_cons, Option.some.injEq] at h
    rcases h with rfl | rfl <;> rfl

theorem afterDoc_head (F : Func) (k : Nat) : (returnPolicy E F ++ argAnnotations F k ++ callGuard E ++ c!");").head? = some ',' ∨
    (returnPolicy E F ++ argAnnotations F k ++ callGuard E ++ c!");").head? = some ')' := by
  have h1 : returnPolicy E F = [] ∨ ∃ t, returnPolicy E F = ',' :: t := by
    unfold returnPolicy
    repeat' split
    all_goals first | exact .inl rfl | exact .inr ⟨_, rfl⟩
  have h2 : argAnnotations F k = [] ∨ ∃ t, argAnnotations F k = ',' :: t := by
    unfold argAnnotations
    cases F.params.take k with
    | nil => exact .inl rfl
    | cons p ps => exact .inr ⟨_, rfl⟩
  have h3 : callGuard E = [] ∨ ∃ t, callGuard E = ',' :: t := by
    unfold callGuard
    split
    · exact .inl rfl
    · exact .inr ⟨_, rfl⟩
  rcases h1 with h1 | ⟨t, h1⟩
  · rcases h2 with h2 | ⟨t, h2⟩
    · rcases h3 with h3 | ⟨t, h3⟩
      · rw [h1, h2, h3]; exact .inr rfl
      · rw [h1, h2, h3]; exact .inl rfl
    · rw [h1, h2]; exact .inl rfl
  · rw [h1]; exact .inl rfl

/-- C115. C++ reads the name in the `def` statement of the operator `operator""_km` as `operator_km`, so this is the name of the function
in Python. It reads the documentation as the text of the comment and the C++ type, also without quotation marks. In between is the
address of the operator, where its name stands as it is. Missing: that no other function has the same name, see `C115_clash_false`. -/
theorem C115_registered_partial (F : Func) (suffix a b : Str) (hname : F.name = c!"operator\"\"" ++ suffix) (hm : F.method = none)
    (ho : F.isOperator = false) (hsuf : Plain suffix) (hsig : signature E F = a ++ c!"\"\"" ++ b) (ha : Plain a) (hb : Plain b) :
    ∃ x y rest, bindOverload E F F.params.length none false = c!".def(" ++ x ∧
      readStrings false x = some (c!"operator" ++ suffix, c!", (" ++ functionPointerType E F ++ c!") &" ++ stdName E F.qname ++
        functionTemplateText E F ++ c!", " ++ y) ∧
      readStrings false y = some ((F.comment.dropWhile fun c => c == ' ' || c == '\n') ++
        (if (F.comment.dropWhile fun c => c == ' ' || c == '\n') = [] then [] else c!"\n\n") ++ c!"C++: " ++ a ++ b, rest) := by
  have hst : F.isStatic = false := by unfold Func.isStatic; rw [hm]
  have hop : Plain c!"operator" := by unfold Plain; decide
  have hcpp : Plain c!"C++: " := by unfold Plain; decide
  let tail := returnPolicy E F ++ argAnnotations F F.params.length ++ callGuard E ++ c!");"
  refine ⟨c!"\"" ++ F.name ++ c!"\", " ++ directCallable E F none ++ c!", \"" ++ functionDoc E F ++ c!"\"" ++ tail,
    c!"\"" ++ functionDoc E F ++ c!"\"" ++ tail, tail, ?_, ?_, ?_⟩
  · unfold bindOverload
    simp [hst, boundName, pythonFunctionName, ho, tail]
  · rw [hname]
    simp only [List.append_assoc]
    show readStrings true (c!"operator" ++ (c!"\"\"" ++ (suffix ++ '"' :: _))) = _
    rw [readStrings_plain hop, readStrings_pair, readStrings_plain hsuf, readStrings_end (.inl rfl)]
    simp [directCallable, calledName]
  · show readStrings true (functionDoc E F ++ c!"\"" ++ tail) = _
    have hd : functionDoc E F = docString F.comment ++ ((if (F.comment.dropWhile fun c => c == ' ' || c == '\n') = [] then [] else c!"\\n\\n") ++
        (c!"C++: " ++ (a ++ (c!"\"\"" ++ b)))) := by
      have : (docString F.comment).length ≠ 0 ↔ ¬ (F.comment.dropWhile fun c => c == ' ' || c == '\n') = [] := by
        rw [docString_eq]
        cases F.comment.dropWhile fun c => c == ' ' || c == '\n' with
        | nil => simp
        | cons c u =>
          simp only [List.flatMap_cons, List.length_append, ne_eq, reduceCtorEq, not_false_eq_true, iff_true]
          unfold docEscape
          repeat' split
          all_goals simp
      unfold functionDoc
      unfold signature at hsig
      simp only [hsig, this]
      split
      · rename_i h; simp [h]
      · rename_i h; simp [Decidable.not_not.1 h]
    rw [hd]
    simp only [List.append_assoc]
    rw [readStrings_docString]
    have hrest : readStrings true (c!"C++: " ++ (a ++ (c!"\"\"" ++ (b ++ (c!"\"" ++ tail))))) = some (c!"C++: " ++ (a ++ b), tail) := by
      rw [readStrings_plain hcpp, readStrings_plain ha, readStrings_pair, readStrings_plain hb]
      show Option.map _ (Option.map _ (Option.map _ (readStrings true ('"' :: tail)))) = _
      rw [readStrings_end (afterDoc_head E F _)]
      simp [tail]
    split
    · rw [List.nil_append, hrest]; simp
    · show Option.map _ (Option.map _ (Option.map _ (readStrings true
        (c!"C++: " ++ (a ++ (c!"\"\"" ++ (b ++ (c!"\"" ++ tail)))))))) = _
      rw [hrest]; simp

namespace Ex

/-- `long operator""_km(unsigned long long)`. -/
def km : Func := exampleFunction c!"operator\"\"_km" c!"n::operator\"\"_km" (.basic 0) [⟨c!"x", .basic 0, false⟩]

/-- `long operator_km(unsigned long long)`. -/
def operatorKm : Func := exampleFunction c!"operator_km" c!"n::operator_km" (.basic 0) [⟨c!"x", .basic 0, false⟩]

end Ex

example : functionBindable exampleEnv Ex.km = true ∧
    (∃ a b, signature exampleEnv Ex.km = a ++ c!"\"\"" ++ b ∧ Plain a ∧ Plain b) ∧
    bindOverload exampleEnv Ex.km 1 none false =
      c!".def(\"operator\"\"_km\", (int (*)(int)) &n::operator\"\"_km, \"C++: n::operator\"\"_km(int) --> int\", pybind11::arg(\"x\"));" := by
  refine ⟨by decide +kernel, ⟨c!"n::operator", c!"_km(int) --> int", by decide +kernel, by unfold Plain; decide,
    by unfold Plain; decide⟩, by decide +kernel⟩

/-- C115: the operator `operator""_km` and the function `operator_km` of the same namespace have the same name in Python. -/
theorem C115_clash_false : functionBindable exampleEnv Ex.km = true ∧ functionBindable exampleEnv Ex.operatorKm = true ∧
    Ex.km.qname ≠ Ex.operatorKm.qname ∧
    ∃ x y r r', bindOverload exampleEnv Ex.km 1 none false = c!".def(" ++ x ∧ bindOverload exampleEnv Ex.operatorKm 1 none false = c!".def(" ++ y ∧
      readStrings false x = some (c!"operator_km", r) ∧ readStrings false y = some (c!"operator_km", r') := by
  refine ⟨by decide +kernel, by decide +kernel, by decide, (bindOverload exampleEnv Ex.km 1 none false).drop 5,
    (bindOverload exampleEnv Ex.operatorKm 1 none false).drop 5, ((bindOverload exampleEnv Ex.km 1 none false).drop 5).drop 15,
    ((bindOverload exampleEnv Ex.operatorKm 1 none false).drop 5).drop 13, by decide +kernel, by decide +kernel, by decide +kernel, by decide +kernel⟩

end Binder

