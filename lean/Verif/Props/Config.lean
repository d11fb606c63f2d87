import Verif.Spec.Builtin
import Verif.Lemmas.ConfigSame

/-!
# Properties of the configuration: C01–C11

Specifications: `Verif/Spec/Config.lean`.
-/

namespace Binder

open Spec (stripCR Ignored directive noSpaces twoWords stripBlanks WellFormed given givenEither lastFor allFor Longest Matched
  Beats Conflict Within)

/-! ## C01, C02 The longest matching namespace entry decides -/

/-- **C01**, binding query: yes exactly when the longest matching entry is a bind entry, or nothing matches and the empty bind entry is
present; an error exactly when the same non-empty entry is the longest in both lists; no exactly when the longest matching entry is a
skip entry, or nothing matches and the empty bind entry is absent. -/
theorem C01_binding_requested (c : Config) (ns : Str) :
    (namespaceBindingRequested c ns = .ok true ↔ Beats c.namespacesToBind c.namespacesToSkip ns ∨
      (¬ Matched c.namespacesToBind ns ∧ ¬ Matched c.namespacesToSkip ns ∧ [] ∈ c.namespacesToBind)) ∧
    (namespaceBindingRequested c ns = .ok false ↔ Beats c.namespacesToSkip c.namespacesToBind ns ∨
      (¬ Matched c.namespacesToBind ns ∧ ¬ Matched c.namespacesToSkip ns ∧ [] ∉ c.namespacesToBind)) ∧
    (∀ e, namespaceBindingRequested c ns = .error e ↔
      e = .conflict ns ∧ Conflict c.namespacesToBind c.namespacesToSkip ns) := by
  refine ⟨bindingRequested_true, ?_, fun e => bindingRequested_error⟩
  have ht := bindingRequested_true (c := c) (ns := ns)
  have he := fun e => bindingRequested_error (c := c) (ns := ns) (e := e)
  have hb := (scanBind_spec ns c.namespacesToBind).1
  have hs := (scanPlain_spec ns c.namespacesToSkip).1
  rw [beats_iff hb hs, scanInv_matched hb, scanInv_matched hs] at ht
  simp only [conflict_iff hb hs] at he
  rw [beats_iff hs hb, scanInv_matched hb, scanInv_matched hs]
  generalize (scanBind ns c.namespacesToBind).1 = b at *
  generalize (scanPlain ns c.namespacesToSkip).1 = s at *
  constructor
  · intro h
    by_cases h1 : s.length > b.length
    · exact Or.inl h1
    · have h2 : ¬ b.length > s.length := by
        intro hg; have := ht.2 (Or.inl hg); rw [h] at this; simp at this
      have hl : b.length = s.length := by omega
      have hb0 : b = [] := by
        apply Classical.byContradiction; intro hb0
        have := (he (.conflict ns)).2 ⟨rfl, hl, hb0⟩
        rw [h] at this; cases this
      have hs0 : s = [] := by rw [← List.length_eq_zero_iff, ← hl, hb0]; rfl
      refine Or.inr ⟨by simp [hb0], by simp [hs0], ?_⟩
      intro hm
      have := ht.2 (Or.inr ⟨by simp [hb0], by simp [hs0], hm⟩)
      rw [h] at this; simp at this
  · intro h
    cases hr : namespaceBindingRequested c ns with
    | error e =>
      obtain ⟨_, hl, hb0⟩ := (he e).1 hr
      rcases h with h | ⟨h, _, _⟩
      · omega
      · exact absurd hb0 h
    | ok x =>
      cases x with
      | false => rfl
      | true =>
        rcases ht.1 hr with h' | ⟨h1, h2, h3⟩
        · rcases h with h | ⟨h, _, _⟩
          · omega
          · simp at h; subst h; simp at h'
        · rcases h with h | ⟨_, _, h⟩
          · simp at h2; subst h2; simp at h
          · exact absurd h3 h

/-- **C01**, skipping query: yes exactly when the longest matching entry is a skip entry, with the same error condition. -/
theorem C01_skipping_requested (c : Config) (ns : Str) :
    (namespaceSkippingRequested c ns = .ok true ↔ Beats c.namespacesToSkip c.namespacesToBind ns) ∧
    (∀ e, namespaceSkippingRequested c ns = .error e ↔
      e = .conflict ns ∧ Conflict c.namespacesToBind c.namespacesToSkip ns) :=
  ⟨skippingRequested_true, fun _ => skippingRequested_error⟩

/-- Both lists match and the longer entry, a skip entry, wins. -/
example : Beats [c!"a::b::c"] [c!"a", c!"a::b"] c!"a::b::c::d" :=
  ⟨c!"a::b::c", ⟨by decide, by decide, by decide⟩, by decide, by decide⟩
example : namespaceBindingRequested { namespacesToBind := [c!"a", c!"a::b"], namespacesToSkip := [c!"a::b::c"] } c!"a::b::c::d" =
    .ok false := rfl
/-- The same entry in both lists is an error. -/
example : Conflict [c!"a", c!"a::b"] [c!"a::b"] c!"a::b::c" :=
  ⟨c!"a::b", by decide, ⟨by decide, by decide, by decide⟩, ⟨by decide, by decide, by decide⟩⟩

/-- **C02**: the two queries never both answer yes, and they raise the conflict error together. -/
theorem C02_exclusive (c : Config) (ns : Str) :
    ¬ (namespaceBindingRequested c ns = .ok true ∧ namespaceSkippingRequested c ns = .ok true) ∧
    ∀ e, namespaceBindingRequested c ns = .error e ↔ namespaceSkippingRequested c ns = .error e := by
  refine ⟨?_, fun e => by rw [bindingRequested_error, skippingRequested_error]⟩
  rintro ⟨h1, h2⟩
  have h3 := (C01_binding_requested c ns).2.1.2 (Or.inl (skippingRequested_true.1 h2))
  rw [h1] at h3; simp at h3

example : namespaceBindingRequested { namespacesToBind := [c!"a"], namespacesToSkip := [c!"a::b"] } c!"a::c" = .ok true ∧
    namespaceSkippingRequested { namespacesToBind := [c!"a"], namespacesToSkip := [c!"a::b"] } c!"a::b::d" = .ok true := ⟨rfl, rfl⟩

/-! ## C03 Order and repetition of entries -/

/-- Two configurations answer every question about entries alike: the queries of `config.hpp`, the include block of a generated file and
the Python builtin test. -/
def SameDecisions (c c' : Config) : Prop :=
  (∀ x, namespaceBindingRequested c x = namespaceBindingRequested c' x) ∧
  (∀ x, namespaceSkippingRequested c x = namespaceSkippingRequested c' x) ∧
  (∀ x, moduleLocalRequested c x = moduleLocalRequested c' x) ∧
  (∀ x, functionBindingRequested c x = functionBindingRequested c' x) ∧
  (∀ x, functionSkippingRequested c x = functionSkippingRequested c' x) ∧
  (∀ x, classBindingRequested c x = classBindingRequested c' x) ∧
  (∀ x, classSkippingRequested c x = classSkippingRequested c' x) ∧
  (∀ x, fieldSkippingRequested c x = fieldSkippingRequested c' x) ∧
  (∀ x, enumBindingRequested c x = enumBindingRequested c' x) ∧
  (∀ x, enumSkippingRequested c x = enumSkippingRequested c' x) ∧
  (∀ x, bufferProtocolRequested c x = bufferProtocolRequested c' x) ∧
  (∀ x, smartHolderRequested c x = smartHolderRequested c' x) ∧
  (∀ x, includeSkippingRequested c x = includeSkippingRequested c' x) ∧
  (∀ includes, generateIncludeDirectives c includes = generateIncludeDirectives c' includes) ∧
  (∀ stl holder x, isPythonBuiltin c stl holder x = isPythonBuiltin c' stl holder x)

theorem sameDecisions_of_entries {c c' : Config} (h : SameEntries c c') : SameDecisions c c' := by
  have hinc : ∀ x, includeSkippingRequested c x = includeSkippingRequested c' x := fun x => any_congr_mem h.includesToSkip _
  refine ⟨fun x => ?_, fun x => ?_, fun x => ?_, fun x => contains_congr h.functionsToBind _, fun x => contains_congr h.functionsToSkip _,
    fun x => contains_congr h.classesToBind _, fun x => contains_congr h.classesToSkip _, fun x => contains_congr h.fieldsToSkip _,
    fun x => contains_congr h.enumsToBind _, fun x => contains_congr h.enumsToSkip _, fun x => contains_congr h.bufferProtocols _,
    fun x => contains_congr h.smartHeldClasses _, hinc, fun i => ?_, fun stl holder x => ?_⟩
  · apply except_bool_eq
    · rw [bindingRequested_true, bindingRequested_true, beats_congr h.namespacesToBind h.namespacesToSkip,
        matched_congr h.namespacesToBind, matched_congr h.namespacesToSkip, h.namespacesToBind]
    · intro e
      rw [bindingRequested_error, bindingRequested_error, conflict_congr h.namespacesToBind h.namespacesToSkip]
  · apply except_bool_eq
    · rw [skippingRequested_true, skippingRequested_true, beats_congr h.namespacesToSkip h.namespacesToBind]
    · intro e
      rw [skippingRequested_error, skippingRequested_error, conflict_congr h.namespacesToBind h.namespacesToSkip]
  · simp only [moduleLocalRequested, contains_congr h.moduleLocalToAdd, contains_congr h.moduleLocalToSkip]
  · simp only [generateIncludeDirectives, hinc]
  · simp only [isPythonBuiltin, contains_congr h.pythonBuiltins, contains_congr h.notPythonBuiltins]

/-- **C03**: a file with the same set of lines, in any order and with any repetitions, is accepted too and gives the same decisions. -/
theorem C03_order_and_repetition (c c1 : Config) (ls ls' : List Str) (h : ∀ l, l ∈ ls ↔ l ∈ ls')
    (h1 : readLines c ls = .ok c1) : ∃ c2, readLines c ls' = .ok c2 ∧ SameDecisions c1 c2 := by
  rw [readLines_ok_iff] at h1
  obtain ⟨hw, rfl⟩ := h1
  exact ⟨_, readLines_ok_iff.2 ⟨fun l hl => hw l ((h l).2 hl), rfl⟩,
    sameDecisions_of_entries (sameEntries_foldl (sameEntries_refl c) h)⟩

example : readLines {} [c!"+namespace a", c!"-class a::B", c!"+namespace a::b"] =
    .ok { namespacesToBind := [c!"a", c!"a::b"], classesToSkip := [c!"a::B"] } := rfl

/-! ## C04 Reading a file again -/

/-- **C04**: starting another translation unit, which reads the same file again into the same object, is accepted again and changes no
decision, no per-key setting and no single-valued setting; the lists of includes keep their sets of elements. -/
theorem C04_reread_partial (o : BindOptions) (content : Str) (c c1 : Config) (h : startTranslationUnit o content c = .ok c1) :
    ∃ c2, startTranslationUnit o content c1 = .ok c2 ∧ SameDecisions c1 c2 ∧
      c2.binders = c1.binders ∧
      c2.addOnBinders = c1.addOnBinders ∧
      c2.binderForNamespaces = c1.binderForNamespaces ∧
      c2.addOnBinderForNamespaces = c1.addOnBinderForNamespaces ∧
      c2.customTrampolineFunctions = c1.customTrampolineFunctions ∧
      c2.staticPointerPolicy = c1.staticPointerPolicy ∧
      c2.staticLvaluePolicy = c1.staticLvaluePolicy ∧
      c2.staticRvaluePolicy = c1.staticRvaluePolicy ∧
      c2.memberPointerPolicy = c1.memberPointerPolicy ∧
      c2.memberLvaluePolicy = c1.memberLvaluePolicy ∧
      c2.memberRvaluePolicy = c1.memberRvaluePolicy ∧
      c2.defaultCallGuard = c1.defaultCallGuard ∧
      c2.holderType = c1.holderType ∧
      c2.pybind11IncludeFile = c1.pybind11IncludeFile ∧
      c2.prefixForStaticMemberFunctions = c1.prefixForStaticMemberFunctions ∧
      (∀ k i, i ∈ c2.classIncludes k ↔ i ∈ c1.classIncludes k) ∧
      (∀ k i, i ∈ c2.namespaceIncludes k ↔ i ∈ c1.namespaceIncludes k) ∧
      (∀ i, i ∈ c2.includesToAdd ↔ i ∈ c1.includesToAdd) := by
  unfold startTranslationUnit readConfig at h
  rw [readLines_ok_iff] at h
  obtain ⟨hw, rfl⟩ := h
  refine ⟨_, readLines_ok_iff.2 ⟨hw, rfl⟩, ?_,
    same_map (f := Config.binders) (g := trim) (map_step (fun _ _ _ _ => rfl)) _ _ _ rfl,
    same_map (f := Config.addOnBinders) (g := trim) (map_step (fun _ _ _ _ => rfl)) _ _ _ rfl,
    same_map (f := Config.binderForNamespaces) (g := trim) (map_step (fun _ _ _ _ => rfl)) _ _ _ rfl,
    same_map (f := Config.addOnBinderForNamespaces) (g := trim) (map_step (fun _ _ _ _ => rfl)) _ _ _ rfl,
    same_map (f := Config.customTrampolineFunctions) (g := id) (map_step (fun _ _ _ _ => rfl)) _ _ _ rfl,
    same_scalar (f := Config.staticPointerPolicy) (scalar_step (fun _ _ _ _ => rfl)) _ _ _ rfl,
    same_scalar (f := Config.staticLvaluePolicy) (scalar_step (fun _ _ _ _ => rfl)) _ _ _ rfl,
    same_scalar (f := Config.staticRvaluePolicy) (scalar_step (fun _ _ _ _ => rfl)) _ _ _ rfl,
    same_scalar (f := Config.memberPointerPolicy) (scalar_step (fun _ _ _ _ => rfl)) _ _ _ rfl,
    same_scalar (f := Config.memberLvaluePolicy) (scalar_step (fun _ _ _ _ => rfl)) _ _ _ rfl,
    same_scalar (f := Config.memberRvaluePolicy) (scalar_step (fun _ _ _ _ => rfl)) _ _ _ rfl,
    same_scalar (f := Config.defaultCallGuard) (scalar_step (fun _ _ _ _ => rfl)) _ _ _ rfl,
    same_scalar (f := Config.holderType) (scalar_step (fun _ _ _ _ => rfl)) _ _ _ rfl,
    same_scalar (f := Config.pybind11IncludeFile) (scalar_step (fun _ _ _ _ => rfl)) _ _ _ rfl,
    same_scalar (f := Config.prefixForStaticMemberFunctions) (scalar_step (fun _ _ _ _ => rfl)) _ _ _ rfl,
    same_incs (f := Config.classIncludes) (incs_step (fun _ _ _ _ => rfl)) _ _ _ rfl,
    same_incs (f := Config.namespaceIncludes) (incs_step (fun _ _ _ _ => rfl)) _ _ _ rfl,
    same_list (f := Config.includesToAdd) (list_step (b := true) rfl (fun _ _ _ _ => rfl)) _ _ _ rfl⟩
  exact sameDecisions_of_entries (sameEntries_reread c o (getlines content))

/-- **C04**, the part that fails: the text of the extra include directives is written once per reading, so it changes. -/
theorem C04_includes_code_false : ∃ o content c1 c2, startTranslationUnit o content {} = .ok c1 ∧
    startTranslationUnit o content c1 = .ok c2 ∧ includesCode c1 false ≠ includesCode c2 false :=
  ⟨⟨[], []⟩, c!"+include <a.h>\n", { includesToAdd := [c!"<a.h>"] }, { includesToAdd := [c!"<a.h>", c!"<a.h>"] }, rfl, rfl, by decide⟩

/-! ## C05 The grammar of the configuration file -/

/-- **C05**, the lines of a file: no line contains a newline, and the lines with their newlines are the file (completed by a final
newline). -/
theorem C05_lines (content : Str) : Spec.IsLines '\n' content (getlines content) := by
  rw [getlines_eq_split]; exact isLines_split '\n' content

/-- **C05**, shape of a directive: a sign, a keyword without spaces, a space, and the argument. -/
theorem C05_directive_shape (l : Str) (s : Char) (k a : Str) :
    directive l = some (s, k, a) ↔ stripCR l = s :: (k ++ ' ' :: a) ∧ ' ' ∉ k ∧ (s = '+' ∨ s = '-') := by
  constructor
  · intro h
    have hs := directive_sign h
    unfold directive at h
    split at h
    · simp at h
    · rename_i s' rest hr
      split at h
      · split at h
        · simp at h
        · rename_i y arg hd
          simp only [Option.some.injEq, Prod.mk.injEq] at h
          obtain ⟨rfl, rfl, rfl⟩ := h
          have hy : y = ' ' := by
            have := List.head?_dropWhile_not (fun x => decide (x ≠ ' ')) rest
            rw [hd] at this; simpa using this
          subst hy
          refine ⟨?_, ?_, hs⟩
          · rw [hr, ← hd, List.takeWhile_append_dropWhile]
          · intro hm
            have := List.all_takeWhile (p := fun x => decide (x ≠ ' ')) (l := rest)
            rw [List.all_eq_true] at this
            simpa using this _ hm
      · simp at h
  · rintro ⟨h1, h2, h3⟩
    unfold directive
    rw [h1]
    have hk : ∀ x ∈ k, x ≠ ' ' := fun x hx hx' => h2 (hx' ▸ hx)
    have e1 : (k ++ ' ' :: a).dropWhile (fun x => decide (x ≠ ' ')) = ' ' :: a := by
      rw [List.dropWhile_append_of_pos (by simpa using hk)]; simp
    have e2 : (k ++ ' ' :: a).takeWhile (fun x => decide (x ≠ ' ')) = k := by
      rw [List.takeWhile_append_of_pos (by simpa using hk)]; simp
    simp only [h3, if_true, e1, e2]

/-- **C05**, acceptance: a file is accepted exactly when every line is empty, a comment, or a well-formed directive. -/
theorem C05_accepted_iff (c : Config) (content : Str) :
    (∃ c', readConfig c content = .ok c') ↔ ∀ l ∈ getlines content, WellFormed l := by
  unfold readConfig
  constructor
  · rintro ⟨c', h⟩; exact (readLines_ok_iff.1 h).1
  · intro h; exact ⟨_, readLines_ok c _ h⟩

/-- **C05**, rejection: the error is about the first malformed line; every line before it was well-formed; the kind of the error is
the first rule the line breaks (bad first character, no space, unknown keyword, wrong sign, missing second word). -/
theorem C05_rejected (c : Config) (content : Str) (e : ReadError) (h : readConfig c content = .error e) :
    ∃ pre l post, getlines content = pre ++ l :: post ∧ (∀ x ∈ pre, WellFormed x) ∧ ¬ WellFormed l ∧
      ((∃ x, e = .firstCharacter x ∧ directive l = none ∧ x = stripCR l ∧ ∀ y, x.head? = some y → y ≠ '+' ∧ y ≠ '-') ∨
       (∃ x, e = .noSpace x ∧ directive l = none ∧ x = stripCR l ∧ (x.head? = some '+' ∨ x.head? = some '-')) ∨
       (∃ s k a x, e = .unknownToken k x ∧ directive l = some (s, k, a) ∧ k ∉ Spec.keywords ∧ x = stripCR l) ∨
       (∃ k a, e = .mustBePlus k ∧ directive l = some ('-', k, a) ∧ k ∈ Spec.plusOnlyKeywords) ∨
       (∃ k a x, e = .noSecondWord x ∧ directive l = some ('+', k, a) ∧ k ∈ Spec.pairKeywords ∧ twoWords a = none ∧
         x = stripCR l)) := by
  unfold readConfig at h
  have hbad : ¬ ∀ l ∈ getlines content, WellFormed l := by
    intro hw; rw [readLines_ok c _ hw] at h; cases h
  obtain ⟨pre, l, post, hl, h1, h2⟩ := first_bad hbad
  refine ⟨pre, l, post, hl, h1, h2, ?_⟩
  rw [hl, readLines_error c pre post l h1 h2] at h
  injection h with h
  subst h
  unfold lineError
  cases hd : directive l with
  | none =>
    simp only
    split
    · rename_i hh; exact Or.inr (Or.inl ⟨_, rfl, trivial, rfl, hh⟩)
    · rename_i hh
      refine Or.inl ⟨_, rfl, trivial, rfl, ?_⟩
      intro y hy
      simp only [hy, not_or, Option.some.injEq] at hh
      exact hh
  | some p =>
    obtain ⟨s, k, a⟩ := p
    have hs := directive_sign hd
    simp only
    by_cases hk : k ∈ Spec.keywords
    · by_cases hm : k ∈ Spec.plusOnlyKeywords ∧ s = '-'
      · rw [if_neg (by simpa using hk), if_pos hm]
        exact Or.inr (Or.inr (Or.inr (Or.inl ⟨k, a, rfl, by rw [hm.2], hm.1⟩)))
      · rw [if_neg (by simpa using hk), if_neg hm]
        have hpl : k ∈ Spec.plusOnlyKeywords → s = '+' := fun hp =>
          hs.resolve_right (fun hs' => hm ⟨hp, hs'⟩)
        have : k ∈ Spec.pairKeywords ∧ s = '+' ∧ twoWords a = none := by
          apply Classical.byContradiction
          intro hn
          exact h2 (Or.inr ⟨s, k, a, hd, hk, hpl, fun a1 a2 a3 => hn ⟨a1, a2, a3⟩⟩)
        refine Or.inr (Or.inr (Or.inr (Or.inr ⟨k, a, _, rfl, ?_, this.1, this.2.2, rfl⟩)))
        rw [this.2.1]
    · rw [if_pos hk]
      exact Or.inr (Or.inr (Or.inl ⟨s, k, a, _, rfl, rfl, hk, rfl⟩))

/-- **C05**, effect of an accepted file on the lists: each list gets, in order, the space-free arguments of the lines with its sign and
keyword, and nothing else. -/
theorem C05_lists (c c' : Config) (content : Str) (h : readConfig c content = .ok c') :
    c'.namespacesToBind = c.namespacesToBind ++ (given '+' c!"namespace" (getlines content)).map noSpaces ∧
    c'.namespacesToSkip = c.namespacesToSkip ++ (given '-' c!"namespace" (getlines content)).map noSpaces ∧
    c'.classesToBind = c.classesToBind ++ (given '+' c!"class" (getlines content)).map noSpaces ∧
    c'.classesToSkip = c.classesToSkip ++ (given '-' c!"class" (getlines content)).map noSpaces ∧
    c'.enumsToBind = c.enumsToBind ++ (given '+' c!"enum" (getlines content)).map noSpaces ∧
    c'.enumsToSkip = c.enumsToSkip ++ (given '-' c!"enum" (getlines content)).map noSpaces ∧
    c'.functionsToBind = c.functionsToBind ++ (given '+' c!"function" (getlines content)).map noSpaces ∧
    c'.functionsToSkip = c.functionsToSkip ++ (given '-' c!"function" (getlines content)).map noSpaces ∧
    c'.includesToAdd = c.includesToAdd ++ (given '+' c!"include" (getlines content)).map noSpaces ∧
    c'.includesToSkip = c.includesToSkip ++ (given '-' c!"include" (getlines content)).map noSpaces ∧
    c'.fieldsToSkip = c.fieldsToSkip ++ (given '-' c!"field" (getlines content)).map noSpaces ∧
    c'.bufferProtocols = c.bufferProtocols ++ (given '+' c!"buffer_protocol" (getlines content)).map noSpaces ∧
    c'.moduleLocalToAdd = c.moduleLocalToAdd ++ (given '+' c!"module_local_namespace" (getlines content)).map noSpaces ∧
    c'.moduleLocalToSkip = c.moduleLocalToSkip ++ (given '-' c!"module_local_namespace" (getlines content)).map noSpaces ∧
    c'.smartHeldClasses = c.smartHeldClasses ++ (given '+' c!"smart_holder" (getlines content)).map noSpaces ∧
    c'.pythonBuiltins = c.pythonBuiltins ++ (given '+' c!"python_builtin" (getlines content)).map noSpaces ∧
    c'.notPythonBuiltins = c.notPythonBuiltins ++ (given '-' c!"python_builtin" (getlines content)).map noSpaces := by
  obtain ⟨_, rfl⟩ := readLines_ok_iff.1 h
  exact ⟨foldl_list (f := Config.namespacesToBind) (list_step (b := true) rfl (fun _ _ _ _ => rfl)) c _,
    foldl_list (f := Config.namespacesToSkip) (list_step (b := false) rfl (fun _ _ _ _ => rfl)) c _,
    foldl_list (f := Config.classesToBind) (list_step (b := true) rfl (fun _ _ _ _ => rfl)) c _,
    foldl_list (f := Config.classesToSkip) (list_step (b := false) rfl (fun _ _ _ _ => rfl)) c _,
    foldl_list (f := Config.enumsToBind) (list_step (b := true) rfl (fun _ _ _ _ => rfl)) c _,
    foldl_list (f := Config.enumsToSkip) (list_step (b := false) rfl (fun _ _ _ _ => rfl)) c _,
    foldl_list (f := Config.functionsToBind) (list_step (b := true) rfl (fun _ _ _ _ => rfl)) c _,
    foldl_list (f := Config.functionsToSkip) (list_step (b := false) rfl (fun _ _ _ _ => rfl)) c _,
    foldl_list (f := Config.includesToAdd) (list_step (b := true) rfl (fun _ _ _ _ => rfl)) c _,
    foldl_list (f := Config.includesToSkip) (list_step (b := false) rfl (fun _ _ _ _ => rfl)) c _,
    foldl_list (f := Config.fieldsToSkip) (list_step (b := false) rfl (fun _ _ _ _ => rfl)) c _,
    foldl_list (f := Config.bufferProtocols) (list_step (b := true) rfl (fun _ _ _ _ => rfl)) c _,
    foldl_list (f := Config.moduleLocalToAdd) (list_step (b := true) rfl (fun _ _ _ _ => rfl)) c _,
    foldl_list (f := Config.moduleLocalToSkip) (list_step (b := false) rfl (fun _ _ _ _ => rfl)) c _,
    foldl_list (f := Config.smartHeldClasses) (list_step (b := true) rfl (fun _ _ _ _ => rfl)) c _,
    foldl_list (f := Config.pythonBuiltins) (list_step (b := true) rfl (fun _ _ _ _ => rfl)) c _,
    foldl_list (f := Config.notPythonBuiltins) (list_step (b := false) rfl (fun _ _ _ _ => rfl)) c _⟩

/-- **C05**, effect on the per-key settings: for each key the last line wins; the two include maps collect all lines. -/
theorem C05_maps (c c' : Config) (content : Str) (h : readConfig c content = .ok c') (key : Str) :
    c'.binders key = ((lastFor c!"binder" key (getlines content)).map stripBlanks).or (c.binders key) ∧
    c'.addOnBinders key = ((lastFor c!"add_on_binder" key (getlines content)).map stripBlanks).or (c.addOnBinders key) ∧
    c'.binderForNamespaces key = ((lastFor c!"binder_for_namespace" key (getlines content)).map stripBlanks).or (c.binderForNamespaces key) ∧
    c'.addOnBinderForNamespaces key = ((lastFor c!"add_on_binder_for_namespace" key (getlines content)).map stripBlanks).or (c.addOnBinderForNamespaces key) ∧
    c'.customTrampolineFunctions key = (lastFor c!"trampoline_member_function_binder" key (getlines content)).or (c.customTrampolineFunctions key) ∧
    c'.classIncludes key = c.classIncludes key ++ allFor c!"include_for_class" key (getlines content) ∧
    c'.namespaceIncludes key = c.namespaceIncludes key ++ allFor c!"include_for_namespace" key (getlines content) := by
  obtain ⟨_, rfl⟩ := readLines_ok_iff.1 h
  have trim_fun : trim = stripBlanks := funext trim_eq_stripBlanks
  exact ⟨foldl_map (f := Config.binders) (g := stripBlanks) (map_step (fun _ _ _ _ => by rw [← trim_fun]; rfl)) c _ key,
    foldl_map (f := Config.addOnBinders) (g := stripBlanks) (map_step (fun _ _ _ _ => by rw [← trim_fun]; rfl)) c _ key,
    foldl_map (f := Config.binderForNamespaces) (g := stripBlanks) (map_step (fun _ _ _ _ => by rw [← trim_fun]; rfl)) c _ key,
    foldl_map (f := Config.addOnBinderForNamespaces) (g := stripBlanks) (map_step (fun _ _ _ _ => by rw [← trim_fun]; rfl)) c _ key,
    (foldl_map (f := Config.customTrampolineFunctions) (g := id) (map_step (fun _ _ _ _ => rfl)) c _ key).trans (by simp),
    foldl_incs (f := Config.classIncludes) (incs_step (fun _ _ _ _ => rfl)) c _ key,
    foldl_incs (f := Config.namespaceIncludes) (incs_step (fun _ _ _ _ => rfl)) c _ key⟩

/-- **C05**, effect on the single-valued settings: the last line wins, whatever its sign. -/
theorem C05_scalars (c c' : Config) (content : Str) (h : readConfig c content = .ok c') :
    c'.staticPointerPolicy = ((givenEither c!"default_static_pointer_return_value_policy" (getlines content)).getLast?.map noSpaces).getD c.staticPointerPolicy ∧
    c'.staticLvaluePolicy = ((givenEither c!"default_static_lvalue_reference_return_value_policy" (getlines content)).getLast?.map noSpaces).getD c.staticLvaluePolicy ∧
    c'.staticRvaluePolicy = ((givenEither c!"default_static_rvalue_reference_return_value_policy" (getlines content)).getLast?.map noSpaces).getD c.staticRvaluePolicy ∧
    c'.memberPointerPolicy = ((givenEither c!"default_member_pointer_return_value_policy" (getlines content)).getLast?.map noSpaces).getD c.memberPointerPolicy ∧
    c'.memberLvaluePolicy = ((givenEither c!"default_member_lvalue_reference_return_value_policy" (getlines content)).getLast?.map noSpaces).getD c.memberLvaluePolicy ∧
    c'.memberRvaluePolicy = ((givenEither c!"default_member_rvalue_reference_return_value_policy" (getlines content)).getLast?.map noSpaces).getD c.memberRvaluePolicy ∧
    c'.defaultCallGuard = ((givenEither c!"default_call_guard" (getlines content)).getLast?.map noSpaces).getD c.defaultCallGuard ∧
    c'.holderType = ((givenEither c!"custom_shared" (getlines content)).getLast?.map noSpaces).getD c.holderType ∧
    c'.pybind11IncludeFile = ((givenEither c!"pybind11_include_file" (getlines content)).getLast?.map noSpaces).getD c.pybind11IncludeFile ∧
    c'.prefixForStaticMemberFunctions = ((givenEither c!"prefix_for_static_member_functions" (getlines content)).getLast?.map noSpaces).getD c.prefixForStaticMemberFunctions := by
  obtain ⟨_, rfl⟩ := readLines_ok_iff.1 h
  exact ⟨foldl_scalar (f := Config.staticPointerPolicy) (scalar_step (fun _ _ _ _ => rfl)) c _,
    foldl_scalar (f := Config.staticLvaluePolicy) (scalar_step (fun _ _ _ _ => rfl)) c _,
    foldl_scalar (f := Config.staticRvaluePolicy) (scalar_step (fun _ _ _ _ => rfl)) c _,
    foldl_scalar (f := Config.memberPointerPolicy) (scalar_step (fun _ _ _ _ => rfl)) c _,
    foldl_scalar (f := Config.memberLvaluePolicy) (scalar_step (fun _ _ _ _ => rfl)) c _,
    foldl_scalar (f := Config.memberRvaluePolicy) (scalar_step (fun _ _ _ _ => rfl)) c _,
    foldl_scalar (f := Config.defaultCallGuard) (scalar_step (fun _ _ _ _ => rfl)) c _,
    foldl_scalar (f := Config.holderType) (scalar_step (fun _ _ _ _ => rfl)) c _,
    foldl_scalar (f := Config.pybind11IncludeFile) (scalar_step (fun _ _ _ _ => rfl)) c _,
    foldl_scalar (f := Config.prefixForStaticMemberFunctions) (scalar_step (fun _ _ _ _ => rfl)) c _⟩

/-- A file with a comment, a CRLF line, a two-word line and a repeated setting. -/
example : ∀ l ∈ getlines c!"# c\n+namespace  a :: b\r\n\n+binder A<int>\t ns::f \n+custom_shared x\n-custom_shared y", WellFormed l := by
  intro l hl
  have : getlines c!"# c\n+namespace  a :: b\r\n\n+binder A<int>\t ns::f \n+custom_shared x\n-custom_shared y" =
    [c!"# c", c!"+namespace  a :: b\r", [], c!"+binder A<int>\t ns::f ", c!"+custom_shared x", c!"-custom_shared y"] := by decide
  rw [this] at hl
  simp only [List.mem_cons, List.not_mem_nil, or_false] at hl
  rcases hl with rfl | rfl | rfl | rfl | rfl | rfl
  · exact Or.inl (by decide)
  · exact Or.inr ⟨'+', c!"namespace", c!" a :: b", by decide, by decide, by decide, by decide⟩
  · exact Or.inl (by decide)
  · exact Or.inr ⟨'+', c!"binder", c!"A<int>\t ns::f ", by decide, by decide, by decide, by decide⟩
  · exact Or.inr ⟨'+', c!"custom_shared", c!"x", by decide, by decide, by decide, by decide⟩
  · exact Or.inr ⟨'-', c!"custom_shared", c!"y", by decide, by decide, by decide, by decide⟩

/-! ## C06 Line endings -/

/-- Lines with a carriage return added where the mark is `true`. -/
def withCR : List Bool → List Str → List Str
  | true :: ms, l :: ls => (l ++ ['\r']) :: withCR ms ls
  | false :: ms, l :: ls => l :: withCR ms ls
  | [], ls => ls
  | _, [] => []

/-- **C06**: writing any subset of the lines of a file with CRLF instead of LF changes neither the outcome nor any setting. -/
theorem C06_crlf (c : Config) (ms : List Bool) (ls : List Str) (h : ∀ l ∈ ls, '\n' ∉ l ∧ l.getLast? ≠ some '\r') :
    readConfig c (Spec.terminated '\n' (withCR ms ls)) = readConfig c (Spec.terminated '\n' ls) := by
  have hmem : ∀ (ms : List Bool) (ls : List Str), (∀ l ∈ ls, '\n' ∉ l ∧ l.getLast? ≠ some '\r') → ∀ l ∈ withCR ms ls, '\n' ∉ l := by
    intro ms
    induction ms with
    | nil => intro ls h l hl; exact (h l (by simpa [withCR] using hl)).1
    | cons m ms ih =>
      intro ls h l hl
      cases ls with
      | nil => cases m <;> simp [withCR] at hl
      | cons x xs =>
        have hx := h x (by simp)
        have hxs := fun l hl => h l (List.mem_cons_of_mem x hl)
        cases m <;> simp only [withCR, List.mem_cons] at hl <;> rcases hl with rfl | hl
        · exact hx.1
        · exact ih xs hxs l hl
        · simp [hx.1]
        · exact ih xs hxs l hl
  have hterm : ∀ ls : List Str, (∀ l ∈ ls, '\n' ∉ l) → getlines (Spec.terminated '\n' ls) = ls := by
    intro ls h
    apply isLines_unique (C05_lines _)
    refine ⟨h, ?_⟩
    cases ls with
    | nil => simp [Spec.terminated]
    | cons l ls =>
      have : ∀ (ls : List Str) (l : Str), (Spec.terminated '\n' (l :: ls)).getLast? = some '\n' := by
        intro ls
        induction ls with
        | nil => intro l; simp [Spec.terminated]
        | cons y ys ih =>
          intro l
          have := ih y
          rw [Spec.terminated, List.getLast?_append, List.getLast?_cons, this]
          simp
      rw [if_pos (Or.inr (this ls l))]
  unfold readConfig
  rw [hterm _ (hmem ms ls h), hterm ls (fun l hl => (h l hl).1)]
  clear hmem hterm
  have hline : ∀ (c : Config) (l : Str), l.getLast? ≠ some '\r' → applyLine c (l ++ ['\r']) = applyLine c l := by
    intro c l hl
    have hs : stripCR (l ++ ['\r']) = stripCR l := by simp [stripCR, hl]
    by_cases h0 : l = []
    · subst h0; simp [applyLine, applyBody]
    · have hh : (l ++ ['\r']).head? = l.head? := by cases l <;> simp_all
      have hig : Ignored (l ++ ['\r']) ↔ Ignored l := by unfold Ignored; rw [hs, hh]
      have hd : directive (l ++ ['\r']) = directive l := by unfold directive; rw [hs]
      rw [applyLine_eq, applyLine_eq, hs, hd]
      simp only [hig]
  induction ms generalizing c ls with
  | nil => simp [withCR]
  | cons m ms ih =>
    cases ls with
    | nil => cases m <;> simp [withCR]
    | cons x xs =>
      have hxs := fun l hl => h l (List.mem_cons_of_mem x hl)
      cases m <;> simp only [withCR, readLines]
      · split
        · rfl
        · exact ih _ _ hxs
      · rw [hline c x (h x (by simp)).2]
        split
        · rfl
        · exact ih _ _ hxs

/-- The middle one of three lines ends with CRLF. -/
example : Spec.terminated '\n' (withCR [false, true] [c!"+namespace a", c!"-namespace b", c!"#"]) =
    c!"+namespace a\n-namespace b\r\n#\n" := by decide

/-! ## C07 Spaces in names -/

/-- **C07** for classes, functions, buffer protocols and smart holders: after reading a file the answer for `name` is yes exactly when
it was yes before or some line of the matching sign and keyword gives a name equal to it up to spaces. -/
theorem C07_names_up_to_spaces_partial (c c' : Config) (content name : Str) (h : readConfig c content = .ok c') :
    (classBindingRequested c' name = true ↔
      classBindingRequested c name = true ∨ ∃ x ∈ given '+' c!"class" (getlines content), noSpaces x = noSpaces name) ∧
    (classSkippingRequested c' name = true ↔
      classSkippingRequested c name = true ∨ ∃ x ∈ given '-' c!"class" (getlines content), noSpaces x = noSpaces name) ∧
    (functionBindingRequested c' name = true ↔
      functionBindingRequested c name = true ∨ ∃ x ∈ given '+' c!"function" (getlines content), noSpaces x = noSpaces name) ∧
    (functionSkippingRequested c' name = true ↔
      functionSkippingRequested c name = true ∨ ∃ x ∈ given '-' c!"function" (getlines content), noSpaces x = noSpaces name) ∧
    (bufferProtocolRequested c' name = true ↔
      bufferProtocolRequested c name = true ∨ ∃ x ∈ given '+' c!"buffer_protocol" (getlines content), noSpaces x = noSpaces name) ∧
    (smartHolderRequested c' name = true ↔
      smartHolderRequested c name = true ∨ ∃ x ∈ given '+' c!"smart_holder" (getlines content), noSpaces x = noSpaces name) ∧
    -- for enums and fields only names without spaces can be found
    (enumBindingRequested c' name = true ↔
      enumBindingRequested c name = true ∨ ∃ x ∈ given '+' c!"enum" (getlines content), noSpaces x = name) ∧
    (enumSkippingRequested c' name = true ↔
      enumSkippingRequested c name = true ∨ ∃ x ∈ given '-' c!"enum" (getlines content), noSpaces x = name) ∧
    (fieldSkippingRequested c' name = true ↔
      fieldSkippingRequested c name = true ∨ ∃ x ∈ given '-' c!"field" (getlines content), noSpaces x = name) := by
  obtain ⟨_, _, l3, l4, l5, l6, l7, l8, _, _, l11, l12, _, _, l15, _, _⟩ := C05_lists c c' content h
  refine ⟨?_, ?_, ?_, ?_, ?_, ?_, ?_, ?_, ?_⟩
  · simp [classBindingRequested, l3, despace_eq]
  · simp [classSkippingRequested, l4, despace_eq]
  · simp [functionBindingRequested, l7, despace_eq]
  · simp [functionSkippingRequested, l8, despace_eq]
  · simp [bufferProtocolRequested, l12, despace_eq]
  · simp [smartHolderRequested, l15, despace_eq]
  · simp [enumBindingRequested, l5]
  · simp [enumSkippingRequested, l6]
  · simp [fieldSkippingRequested, l11]

example : readConfig {} c!"+class A<int, B>" = .ok { classesToBind := [c!"A<int,B>"] } ∧
    classBindingRequested { classesToBind := [c!"A<int,B>"] } c!"A<int,  B>" = true := ⟨rfl, by decide⟩

/-- **C07** fails for enums and fields: the entry loses its spaces, the queried name keeps them, so the very name written in the file is
not found. -/
theorem C07_names_up_to_spaces_false :
    (∃ c', readConfig {} c!"+enum A<int, B>::E\n-enum A<int, B>::F\n-field A<int, B>::x" = .ok c' ∧
      enumBindingRequested c' c!"A<int, B>::E" = false ∧ enumSkippingRequested c' c!"A<int, B>::F" = false ∧
      fieldSkippingRequested c' c!"A<int, B>::x" = false) :=
  ⟨{ enumsToBind := [c!"A<int,B>::E"], enumsToSkip := [c!"A<int,B>::F"], fieldsToSkip := [c!"A<int,B>::x"] }, rfl, by decide⟩

/-! ## C08 Extent of a namespace entry -/

/-- **C08** fails: the entry `foo` also governs the unrelated namespace `foobar`. -/
theorem C08_exactly_nested_false : ∃ c : Config, c.namespacesToBind = [c!"foo"] ∧ c.namespacesToSkip = [] ∧
    ¬ Within c!"foo" c!"foobar" ∧ namespaceBindingRequested c c!"foobar" = .ok true := by
  refine ⟨{ namespacesToBind := [c!"foo"] }, rfl, rfl, ?_, rfl⟩
  rintro (h | ⟨r, h⟩)
  · revert h; decide
  · simp at h

/-- **C08**, the part that holds: an entry covers its namespace and everything nested in it unless a longer entry of the other kind
matches, and adding an entry never changes the answer for a namespace whose text does not start with it. -/
theorem C08_nested_partial (c : Config) (e ns : Str) (he : e ≠ []) :
    (e ∈ c.namespacesToBind → Within e ns → (∀ x ∈ c.namespacesToSkip, x <+: ns → x.length < e.length) →
      namespaceBindingRequested c ns = .ok true) ∧
    (e ∈ c.namespacesToSkip → Within e ns → (∀ x ∈ c.namespacesToBind, x <+: ns → x.length < e.length) →
      namespaceSkippingRequested c ns = .ok true) ∧
    (¬ e <+: ns →
      namespaceBindingRequested { c with namespacesToBind := e :: c.namespacesToBind } ns = namespaceBindingRequested c ns ∧
      namespaceSkippingRequested { c with namespacesToBind := e :: c.namespacesToBind } ns = namespaceSkippingRequested c ns ∧
      namespaceBindingRequested { c with namespacesToSkip := e :: c.namespacesToSkip } ns = namespaceBindingRequested c ns ∧
      namespaceSkippingRequested { c with namespacesToSkip := e :: c.namespacesToSkip } ns = namespaceSkippingRequested c ns) := by
  have hpre : Within e ns → e <+: ns := by
    rintro (h | ⟨r, h⟩)
    · rw [h]; exact List.prefix_refl _
    · rw [h, List.append_assoc]; exact List.prefix_append _ _
  refine ⟨?_, ?_, ?_⟩
  · intro hm hw hx
    rw [bindingRequested_true]
    left
    have hb := (scanBind_spec ns c.namespacesToBind).1
    rcases hb with ⟨_, h⟩ | ⟨h1, h2⟩
    · exact absurd ⟨e, hm, he, hpre hw⟩ h
    · refine ⟨_, h2, h1, ?_⟩
      intro x hxm hxp
      have := h2.2.2 e hm (hpre hw); have := hx x hxm hxp; omega
  · intro hm hw hx
    rw [skippingRequested_true]
    have hb := (scanPlain_spec ns c.namespacesToSkip).1
    rcases hb with ⟨_, h⟩ | ⟨h1, h2⟩
    · exact absurd ⟨e, hm, he, hpre hw⟩ h
    · refine ⟨_, h2, h1, ?_⟩
      intro x hxm hxp
      have := h2.2.2 e hm (hpre hw); have := hx x hxm hxp; omega
  · intro hn
    have hb : beginsWith ns e = false := by
      cases h : beginsWith ns e
      · rfl
      · exact absurd ((beginsWith_iff ns e).1 h) hn
    have h0 : (e.length == 0) = false := by simpa using he
    have e1 : ∀ l, scanBind ns (e :: l) = scanBind ns l := by intro l; simp [scanBind, hb, he]
    have e2 : ∀ l, scanPlain ns (e :: l) = scanPlain ns l := by intro l; simp [scanPlain, hb]
    refine ⟨?_, ?_, ?_, ?_⟩ <;> simp only [namespaceBindingRequested, namespaceSkippingRequested, e1, e2]

example : Within c!"core" c!"core::pose" ∧ ¬ c!"core" <+: c!"protocols" := ⟨Or.inr ⟨c!"pose", rfl⟩, by decide⟩

/-! ## C09 Python builtins -/

theorem mem_knownBuiltin (holder name : Str) : name ∈ knownBuiltin holder ↔ Spec.KnownPythonType holder name := by
  have e : knownBuiltin holder = (knownBuiltin []).take 5 ++ holder :: (knownBuiltin []).drop 6 := rfl
  have e1 : name ∈ knownBuiltin holder ↔ name = holder ∨ name ∈ (knownBuiltin []).take 5 ++ (knownBuiltin []).drop 6 := by
    rw [e, List.mem_append, List.mem_cons, List.mem_append]
    exact ⟨fun h => by rcases h with h | h | h <;> simp [h], fun h => by rcases h with h | h | h <;> simp [h]⟩
  let spec := Spec.standardTypes.map (c!"std::" ++ ·) ++
      (Spec.pythonObjects.map (c!"pybind11::" ++ ·)).filter (fun y => y ∉ Spec.unknownPythonObjects.map (c!"pybind11::" ++ ·)) ++
      [c!"pybind11::bytesarray", c!"__gnu_cxx::__normal_iterator"]
  have h1 : ∀ x ∈ (knownBuiltin []).take 5 ++ (knownBuiltin []).drop 6, x ∈ spec := by decide +kernel
  have h2 : ∀ x ∈ spec, x ∈ (knownBuiltin []).take 5 ++ (knownBuiltin []).drop 6 := by decide +kernel
  have e2 : name ∈ (knownBuiltin []).take 5 ++ (knownBuiltin []).drop 6 ↔ name ∈ spec := ⟨h1 name, h2 name⟩
  rw [e1, Spec.KnownPythonType, e2]
  simp only [spec, List.mem_append, List.mem_filter, decide_eq_true_eq, List.mem_cons, List.not_mem_nil, or_false, or_assoc]

theorem mem_stlBuiltin (name : Str) : name ∈ stlBuiltin ↔ Spec.ConvertedContainer name := by
  have h1 : ∀ x ∈ stlBuiltin, x ∈ Spec.convertedContainers.map (c!"std::" ++ ·) := by decide +kernel
  have h2 : ∀ x ∈ Spec.convertedContainers.map (c!"std::" ++ ·), x ∈ stlBuiltin := by decide +kernel
  exact ⟨h1 name, h2 name⟩

/-- **C09**: `-python_builtin` wins; otherwise a type is a builtin exactly when it is listed, known, or a known STL container while the STL
option is on. -/
theorem C09_python_builtin (c : Config) (stl : Bool) (holder name : Str) :
    isPythonBuiltin c stl holder name = true ↔ name ∉ c.notPythonBuiltins ∧
      (name ∈ c.pythonBuiltins ∨ Spec.KnownPythonType holder name ∨ (stl = true ∧ Spec.ConvertedContainer name)) := by
  rw [← mem_knownBuiltin, ← mem_stlBuiltin]
  unfold isPythonBuiltin
  by_cases h1 : name ∈ c.notPythonBuiltins
  · simp [h1]
  · by_cases h2 : name ∈ c.pythonBuiltins <;> by_cases h3 : name ∈ knownBuiltin holder <;> cases stl <;>
      by_cases h4 : name ∈ stlBuiltin <;> simp [h1, h2, h3, h4]

/-- **C09** with the file: a name is a builtin after reading a file according to the lines of the file. -/
theorem C09_from_file (content : Str) (c' : Config) (stl : Bool) (holder name : Str) (h : readConfig {} content = .ok c') :
    isPythonBuiltin c' stl holder name = true ↔ name ∉ (given '-' c!"python_builtin" (getlines content)).map noSpaces ∧
      (name ∈ (given '+' c!"python_builtin" (getlines content)).map noSpaces ∨ Spec.KnownPythonType holder name ∨
        (stl = true ∧ Spec.ConvertedContainer name)) := by
  obtain ⟨_, _, _, _, _, _, _, _, _, _, _, _, _, _, _, l16, l17⟩ := C05_lists {} c' content h
  rw [C09_python_builtin, l16, l17]; simp

example : isPythonBuiltin { notPythonBuiltins := [c!"std::pair"] } true c!"h" c!"std::pair" = false ∧
    isPythonBuiltin {} true c!"h" c!"std::vector" = true ∧ isPythonBuiltin {} false c!"h" c!"std::vector" = false := by decide

/-- The banned names. -/
theorem isBannedSymbol_iff (name : Str) : isBannedSymbol name = true ↔ Spec.ReservedName name := by
  unfold isBannedSymbol Spec.ReservedName
  rw [← beginsWith_iff]
  cases beginsWith name c!"std::_" <;> simp

/-! ## C10 module_local -/

/-- **C10**: the decision and the conflict error. -/
theorem C10_module_local (c : Config) (ns : Str) :
    (moduleLocalRequested c ns = .ok true ↔
      (c!"@all_namespaces" ∈ c.moduleLocalToAdd ∧ ns ∉ c.moduleLocalToSkip) ∨
      (ns ∈ c.moduleLocalToAdd ∧ ns ∉ c.moduleLocalToSkip)) ∧
    (∀ e, moduleLocalRequested c ns = .error e ↔ e = .conflict ns ∧
      c!"@all_namespaces" ∉ c.moduleLocalToAdd ∧ ns ∈ c.moduleLocalToAdd ∧ ns ∈ c.moduleLocalToSkip) := by
  constructor
  · unfold moduleLocalRequested
    generalize hall : c!"@all_namespaces" = all
    by_cases h1 : all ∈ c.moduleLocalToAdd <;> by_cases h2 : ns ∈ c.moduleLocalToAdd <;> by_cases h3 : ns ∈ c.moduleLocalToSkip <;>
      simp [h1, h2, h3]
  · intro e
    unfold moduleLocalRequested
    generalize hall : c!"@all_namespaces" = all
    by_cases h1 : all ∈ c.moduleLocalToAdd <;> by_cases h2 : ns ∈ c.moduleLocalToAdd <;> by_cases h3 : ns ∈ c.moduleLocalToSkip <;>
      simp [h1, h2, h3, eq_comm]

example : moduleLocalRequested { moduleLocalToAdd := [c!"@all_namespaces"], moduleLocalToSkip := [c!"a"] } c!"a" = .ok false ∧
    moduleLocalRequested { moduleLocalToAdd := [c!"a"], moduleLocalToSkip := [c!"a"] } c!"a" = .error (.conflict c!"a") := ⟨rfl, rfl⟩

/-! ## C11 Include directives -/

/-- **C11**: the include block is a sequence of `#include` lines for a strictly increasing list whose elements are exactly the collected
includes that do not start with an entry of the skip list. -/
theorem C11_include_block (c : Config) (includes : List Str) :
    ∃ l : List Str, generateIncludeDirectives c includes = l.flatMap (fun i => c!"#include " ++ i ++ c!"\n") ∧
      l.Pairwise (· < ·) ∧ l.Nodup ∧ ∀ i, i ∈ l ↔ i ∈ includes ∧ ∀ e ∈ c.includesToSkip, ¬ e <+: i := by
  refine ⟨(setOf includes).filter (fun i => !(includeSkippingRequested c i)), ?_, ?_, ?_, ?_⟩
  · unfold generateIncludeDirectives
    suffices h : ∀ (l : List Str) (acc : Str), l.foldl (fun r i => if !(includeSkippingRequested c i) then
        r ++ (c!"#include " ++ i ++ c!"\n") else r) acc =
        acc ++ (l.filter (fun i => !(includeSkippingRequested c i))).flatMap (fun i => c!"#include " ++ i ++ c!"\n") by
      rw [h, List.nil_append]
    intro l
    induction l with
    | nil => intro acc; simp
    | cons x xs ih =>
      intro acc
      rw [List.foldl_cons, ih]
      cases hx : includeSkippingRequested c x <;> simp [hx]
  · exact (sorted_setOf includes).filter _
  · exact nodup_of_sorted ((sorted_setOf includes).filter _)
  · intro i
    rw [List.mem_filter, mem_setOf]
    have : includeSkippingRequested c i = true ↔ ∃ e ∈ c.includesToSkip, e <+: i := by
      simp [includeSkippingRequested, beginsWith_iff]
    constructor
    · rintro ⟨h1, h2⟩
      refine ⟨h1, fun e he hp => ?_⟩
      rw [this.2 ⟨e, he, hp⟩] at h2; simp at h2
    · rintro ⟨h1, h2⟩
      refine ⟨h1, ?_⟩
      cases hx : includeSkippingRequested c i
      · rfl
      · obtain ⟨e, he, hp⟩ := this.1 hx
        exact absurd hp (h2 e he)

example : generateIncludeDirectives { includesToSkip := [c!"<b"] } [c!"<c.h>", c!"<a.h>", c!"<b/x.h>", c!"<c.h>"] =
    c!"#include <a.h>\n#include <c.h>\n" := by decide

end Binder
