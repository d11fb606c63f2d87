import Verif.Model.Config
import Verif.Spec.Config
import Verif.Spec.Strings
import Verif.Lemmas.Strings

/-! # Lemmas about the configuration reader -/

namespace Binder

open Spec (stripCR Ignored directive noSpaces twoWords stripBlanks WellFormed given givenEither lastFor allFor)

theorem findChar_some {ch : Char} {s : Str} {i : Nat} (h : findChar ch s = some i) :
    s.takeWhile (· ≠ ch) = s.take i ∧ s.dropWhile (· ≠ ch) = ch :: s.drop (i + 1) := by
  induction s generalizing i with
  | nil => simp [findChar] at h
  | cons x xs ih =>
    simp only [findChar] at h
    split at h
    · rename_i hx
      simp at hx h; subst hx; subst h; simp
    · rename_i hx
      simp at hx
      simp only [Option.map_eq_some_iff] at h
      obtain ⟨k, hk, rfl⟩ := h
      obtain ⟨h1, h2⟩ := ih hk
      simp only [decide_not] at h1 h2
      simp [hx, h1, h2]

theorem findChar_none {ch : Char} {s : Str} : findChar ch s = none ↔ ch ∉ s := by
  induction s with
  | nil => simp [findChar]
  | cons x xs ih =>
    simp only [findChar]
    split
    · rename_i hx; simp at hx; simp [hx]
    · rename_i hx; simp at hx; simp [ih, Ne.symm hx]

theorem dropWhile_ne_nil {ch : Char} {s : Str} (h : ch ∉ s) : s.dropWhile (· ≠ ch) = [] := by
  induction s with
  | nil => rfl
  | cons x xs ih =>
    simp at h
    have : x ≠ ch := fun hx => h.1 hx.symm
    simpa [this] using ih h.2

theorem splitInTwo_eq (s : Str) : splitInTwo s = twoWords s := by
  unfold splitInTwo twoWords
  induction s with
  | nil => simp [findChar, minPos]
  | cons x xs ih =>
    by_cases h1 : x = ' '
    · subst h1
      have h0 : findChar ' ' (' ' :: xs) = some 0 := by simp [findChar]
      rw [h0]
      cases findChar '\t' (' ' :: xs) <;> simp [minPos]
    · by_cases h2 : x = '\t'
      · subst h2
        have h0 : findChar '\t' ('\t' :: xs) = some 0 := by simp [findChar]
        rw [h0]
        cases h3 : findChar ' ' ('\t' :: xs) with
        | none => simp [minPos]
        | some k =>
          have : k ≠ 0 := by
            intro hk; subst hk; simp [findChar] at h3
          simp [minPos]
          have h4 : ¬ (k ≤ 0) := by omega
          simp [this]
      · have e1 : findChar ' ' (x :: xs) = (findChar ' ' xs).map (· + 1) := by simp [findChar, h1]
        have e2 : findChar '\t' (x :: xs) = (findChar '\t' xs).map (· + 1) := by simp [findChar, h2]
        have e3 : minPos ((findChar ' ' xs).map (· + 1)) ((findChar '\t' xs).map (· + 1)) =
            (minPos (findChar ' ' xs) (findChar '\t' xs)).map (· + 1) := by
          cases findChar ' ' xs <;> cases findChar '\t' xs <;> simp [minPos]
          split <;> rfl
        rw [e1, e2, e3]
        simp only [List.dropWhile_cons, List.takeWhile_cons]
        simp only [h1, h2, ne_eq, not_false_eq_true, and_self, decide_true, if_true]
        cases h5 : minPos (findChar ' ' xs) (findChar '\t' xs) with
        | none =>
          rw [h5] at ih
          simp at ih ⊢
          split at ih <;> simp_all
        | some k =>
          rw [h5] at ih
          simp at ih ⊢
          split at ih <;> simp_all

theorem stripBlanks_isTrimmed (s : Str) : Spec.IsTrimmed s (stripBlanks s) := by
  unfold stripBlanks
  generalize hp : (fun c => decide (c = ' ' ∨ c = '\t')) = p
  have hpb : ∀ c, p c = true ↔ Spec.Blank c := by intro c; subst hp; simp [Spec.Blank]
  have all_take : ∀ (l : Str), ∀ c ∈ l.takeWhile p, p c = true := by
    intro l c hc
    have := List.all_takeWhile (p := p) (l := l)
    rw [List.all_eq_true] at this
    exact this c hc
  have head_drop : ∀ (l : Str) c, (l.dropWhile p).head? = some c → p c = false := by
    intro l c h
    have := List.head?_dropWhile_not p l
    rw [h] at this; simpa using this
  refine ⟨⟨s.takeWhile p, ((s.dropWhile p).reverse.takeWhile p).reverse, ?_, ?_, ?_⟩, ?_, ?_⟩
  · rw [List.append_assoc, ← List.reverse_append, List.takeWhile_append_dropWhile, List.reverse_reverse,
      List.takeWhile_append_dropWhile]
  · intro c hc; exact (hpb c).1 (all_take _ c hc)
  · intro c hc; rw [List.mem_reverse] at hc; exact (hpb c).1 (all_take _ c hc)
  · intro c hc hb
    -- the head of the result is the head of `dropWhile`
    have hne : (List.dropWhile p (List.dropWhile p s).reverse) <:+ (List.dropWhile p s).reverse := List.dropWhile_suffix p
    have hpre : (List.dropWhile p (List.dropWhile p s).reverse).reverse <+: List.dropWhile p s := by
      have := List.reverse_prefix.2 hne
      simpa using this
    obtain ⟨t, ht⟩ := hpre
    have hh : (List.dropWhile p s).head? = some c := by
      rw [← ht]
      cases h : (List.dropWhile p (List.dropWhile p s).reverse).reverse with
      | nil => rw [h] at hc; simp at hc
      | cons y ys => rw [h] at hc; simpa using hc
    have := head_drop s c hh
    rw [(hpb c).2 hb] at this; simp at this
  · intro c hc hb
    rw [List.getLast?_reverse] at hc
    have := head_drop _ c hc
    rw [(hpb c).2 hb] at this; simp at this

theorem trim_eq_stripBlanks (s : Str) : trim s = stripBlanks s :=
  isTrimmed_unique (isTrimmed_trim s) (stripBlanks_isTrimmed s)

theorem despace_eq (s : Str) : despace s = noSpaces s := by
  unfold despace noSpaces
  congr 1; funext x
  by_cases h : x = ' ' <;> simp [h]

/-- What one line does, in terms of the specification of lines. -/
theorem applyLine_eq (c : Config) (l : Str) :
    applyLine c l = if Ignored l then .ok c else
      match directive l with
      | some (s, k, a) => applyToken c (stripCR l) (s == '+') k a
      | none => if (stripCR l).head? = some '+' ∨ (stripCR l).head? = some '-' then .error (.noSpace (stripCR l))
          else .error (.firstCharacter (stripCR l)) := by
  have body : ∀ m, applyBody c m = if m = [] then .ok c else
      match (match m with
        | [] => none
        | s :: rest =>
          if s = '+' ∨ s = '-' then
            match rest.dropWhile (· ≠ ' ') with
            | [] => none
            | _ :: arg => some (s, rest.takeWhile (· ≠ ' '), arg)
          else none : Option (Char × Str × Str)) with
      | some (s, k, a) => applyToken c m (s == '+') k a
      | none => if m.head? = some '+' ∨ m.head? = some '-' then .error (.noSpace m) else .error (.firstCharacter m) := by
    intro m
    cases m with
    | nil => simp [applyBody]
    | cons x xs =>
      unfold applyBody
      by_cases hx : x = '+' ∨ x = '-'
      · have hxs : x ≠ ' ' := by rcases hx with h | h <;> subst h <;> decide
        have hcond : (x != '+' && x != '-') = false := by rcases hx with h | h <;> subst h <;> decide
        simp only [hcond, hx, if_true, List.head?_cons, Option.some.injEq]
        cases h : findChar ' ' (x :: xs) with
        | none =>
          rw [findChar_none] at h
          have h' : ' ' ∉ xs := fun hm => h (List.mem_cons_of_mem _ hm)
          rw [dropWhile_ne_nil h']
          simp
        | some i =>
          have hi : ∃ k, findChar ' ' xs = some k ∧ i = k + 1 := by
            simp only [findChar] at h
            have : (x == ' ') = false := by simpa using hxs
            simp only [this] at h
            simp only [Bool.false_eq_true, if_false, Option.map_eq_some_iff] at h
            obtain ⟨k, hk, rfl⟩ := h; exact ⟨k, hk, rfl⟩
          obtain ⟨k, hk, rfl⟩ := hi
          obtain ⟨h1, h2⟩ := findChar_some hk
          rw [h1, h2]
          simp [Str.substr]
      · have hcond : (x != '+' && x != '-') = true := by
          simp only [not_or] at hx
          simp [hx.1, hx.2]
        simp only [hcond, hx, if_false, if_true, List.head?_cons, Option.some.injEq]
        simp
  by_cases h0 : l = []
  · subst h0; simp [applyLine, Ignored, stripCR]
  by_cases h1 : l.head? = some '#'
  · simp [applyLine, Ignored, h1]
  have hig : Ignored l ↔ stripCR l = [] := by simp [Ignored, h1]
  have happ : applyLine c l = applyBody c (stripCR l) := by
    unfold applyLine stripCR
    simp only [h0, h1, if_false]
    split <;> rfl
  rw [happ, body]
  by_cases h2 : stripCR l = []
  · simp [hig, h2]
  · have h3 : ¬ Ignored l := by rw [hig]; exact h2
    rw [if_neg h2, if_neg h3]
    unfold directive
    rfl

/-- One token applied to one list field: `none` if the keyword or the sign is another one. -/
def addList (old : List Str) (b b' : Bool) (tok k name : Str) : List Str := if b = b' ∧ tok = k then old ++ [despace name] else old

def setMap (old : Str → Option Str) (f : Str → Str) (b : Bool) (tok k name : Str) : Str → Option Str :=
  if b = true ∧ tok = k then (match splitInTwo name with | some (x, v) => mapSet old x (f v) | none => old) else old

def pushMap (old : Str → List Str) (b : Bool) (tok k name : Str) : Str → List Str :=
  if b = true ∧ tok = k then (match splitInTwo name with | some (x, v) => mapPush old x v | none => old) else old

def setScalar (old tok k name : Str) : Str := if tok = k then despace name else old

/-- The effect of an accepted keyword, field by field. -/
def fieldEffect (c : Config) (b : Bool) (tok name : Str) : Config where
  namespacesToBind := addList c.namespacesToBind b true tok c!"namespace" name
  namespacesToSkip := addList c.namespacesToSkip b false tok c!"namespace" name
  classesToBind := addList c.classesToBind b true tok c!"class" name
  classesToSkip := addList c.classesToSkip b false tok c!"class" name
  enumsToBind := addList c.enumsToBind b true tok c!"enum" name
  enumsToSkip := addList c.enumsToSkip b false tok c!"enum" name
  functionsToBind := addList c.functionsToBind b true tok c!"function" name
  functionsToSkip := addList c.functionsToSkip b false tok c!"function" name
  includesToAdd := addList c.includesToAdd b true tok c!"include" name
  includesToSkip := addList c.includesToSkip b false tok c!"include" name
  fieldsToSkip := addList c.fieldsToSkip b false tok c!"field" name
  bufferProtocols := addList c.bufferProtocols b true tok c!"buffer_protocol" name
  moduleLocalToAdd := addList c.moduleLocalToAdd b true tok c!"module_local_namespace" name
  moduleLocalToSkip := addList c.moduleLocalToSkip b false tok c!"module_local_namespace" name
  smartHeldClasses := addList c.smartHeldClasses b true tok c!"smart_holder" name
  pythonBuiltins := addList c.pythonBuiltins b true tok c!"python_builtin" name
  notPythonBuiltins := addList c.notPythonBuiltins b false tok c!"python_builtin" name
  binders := setMap c.binders trim b tok c!"binder" name
  addOnBinders := setMap c.addOnBinders trim b tok c!"add_on_binder" name
  binderForNamespaces := setMap c.binderForNamespaces trim b tok c!"binder_for_namespace" name
  addOnBinderForNamespaces := setMap c.addOnBinderForNamespaces trim b tok c!"add_on_binder_for_namespace" name
  customTrampolineFunctions := setMap c.customTrampolineFunctions id b tok c!"trampoline_member_function_binder" name
  classIncludes := pushMap c.classIncludes b tok c!"include_for_class" name
  namespaceIncludes := pushMap c.namespaceIncludes b tok c!"include_for_namespace" name
  staticPointerPolicy := setScalar c.staticPointerPolicy tok c!"default_static_pointer_return_value_policy" name
  staticLvaluePolicy := setScalar c.staticLvaluePolicy tok c!"default_static_lvalue_reference_return_value_policy" name
  staticRvaluePolicy := setScalar c.staticRvaluePolicy tok c!"default_static_rvalue_reference_return_value_policy" name
  memberPointerPolicy := setScalar c.memberPointerPolicy tok c!"default_member_pointer_return_value_policy" name
  memberLvaluePolicy := setScalar c.memberLvaluePolicy tok c!"default_member_lvalue_reference_return_value_policy" name
  memberRvaluePolicy := setScalar c.memberRvaluePolicy tok c!"default_member_rvalue_reference_return_value_policy" name
  defaultCallGuard := setScalar c.defaultCallGuard tok c!"default_call_guard" name
  holderType := setScalar c.holderType tok c!"custom_shared" name
  pybind11IncludeFile := setScalar c.pybind11IncludeFile tok c!"pybind11_include_file" name
  prefixForStaticMemberFunctions := setScalar c.prefixForStaticMemberFunctions tok c!"prefix_for_static_member_functions" name

theorem applyToken_unknown {c : Config} {line : Str} {b : Bool} {tok name : Str} (h : tok ∉ Spec.keywords) :
    applyToken c line b tok name = .error (.unknownToken tok line) := by
  simp only [Spec.keywords, Spec.pairKeywords, List.cons_append, List.nil_append, List.mem_cons, not_or, List.not_mem_nil] at h
  simp only [applyToken, h, if_false]

/-- What an accepted, a rejected keyword does. -/
theorem applyToken_known (c : Config) (line : Str) (b : Bool) (tok name : Str) (h : tok ∈ Spec.keywords) :
    applyToken c line b tok name =
      if tok ∈ Spec.plusOnlyKeywords ∧ b = false then .error (.mustBePlus tok)
      else if tok ∈ Spec.pairKeywords ∧ b = true ∧ splitInTwo name = none then .error (.noSecondWord line)
      else .ok (fieldEffect c b tok name) := by
  simp only [Spec.keywords, Spec.pairKeywords, List.cons_append, List.nil_append, List.mem_cons, List.not_mem_nil, or_false] at h
  rcases h with rfl | rfl | rfl | rfl | rfl | rfl | rfl | rfl | rfl | rfl | rfl | rfl | rfl | rfl | rfl | rfl | rfl | rfl | rfl | rfl | rfl | rfl | rfl | rfl | rfl | rfl | rfl
  all_goals
    cases b <;> simp [applyToken, Spec.plusOnlyKeywords, Spec.pairKeywords, fieldEffect, addList, setMap, pushMap, setScalar, withTwo]
  all_goals (cases splitInTwo name <;> simp)

end Binder
