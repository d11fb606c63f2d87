import Verif.Lemmas.Queries
import Verif.Props.Config
import Verif.Props.Function

/-!
# Properties C44 - C46: requests of the user for functions, classes and enumerations; template arguments

`E : Env` is an arbitrary program as clang presents it, with an arbitrary configuration.
-/

namespace Binder

open Cxx Spec

variable (E : Env)

theorem listed_function_skip (n : Str) : functionSkippingRequested E.cfg n = true ↔ Listed E.cfg.functionsToSkip n := by
  simp only [functionSkippingRequested, List.contains_iff_mem, Listed, despace_eq]; rfl

theorem listed_function_bind (n : Str) : functionBindingRequested E.cfg n = true ↔ Listed E.cfg.functionsToBind n := by
  simp only [functionBindingRequested, List.contains_iff_mem, Listed, despace_eq]; rfl

theorem listed_class_skip (n : Str) : classSkippingRequested E.cfg n = true ↔ Listed E.cfg.classesToSkip n := by
  simp only [classSkippingRequested, List.contains_iff_mem, Listed, despace_eq]; rfl

theorem listed_class_bind (n : Str) : classBindingRequested E.cfg n = true ↔ Listed E.cfg.classesToBind n := by
  simp only [classBindingRequested, List.contains_iff_mem, Listed, despace_eq]; rfl

/-! ## C44: functions -/

/-- C44. The rules for a function, in order: an entry for its signature, an entry for its name; within each, skipping first. The
signature contains the template arguments and parameter types. -/
theorem C44_skip_entries (F : Func) (b : Bool)
    (h : FirstMatch
      [(Listed E.cfg.functionsToSkip (functionQualifiedName E F true), true),
       (Listed E.cfg.functionsToBind (functionQualifiedName E F true), false),
       (Listed E.cfg.functionsToSkip (stdName E F.qname), true),
       (Listed E.cfg.functionsToBind (stdName E F.qname), false)] (some b)) : skipFunction E F = .ok b := by
  simp only [← listed_function_skip, ← listed_function_bind] at h
  unfold skipFunction
  cases h with
  | hit h => simp [h]
  | miss n h =>
    cases h with
    | hit h => simp [h, n]
    | miss n2 h =>
      cases h with
      | hit h => simp [h, n, n2]
      | miss n3 h =>
        cases h with
        | hit h => simp [h, n, n2, n3]
        | miss n4 h => cases h

/-- C44. Without such entries a function is skipped exactly if its namespace is, if it is a member of a class template that is listed
without template arguments, or if a type it uses leads to a skipped class. -/
theorem C44_skip_otherwise (F : Func) (b : Bool)
    (h : FirstMatch
      [(Listed E.cfg.functionsToSkip (functionQualifiedName E F true), true),
       (Listed E.cfg.functionsToBind (functionQualifiedName E F true), false),
       (Listed E.cfg.functionsToSkip (stdName E F.qname), true),
       (Listed E.cfg.functionsToBind (stdName E F.qname), false)] none) (hb : skipFunction E F = .ok b) :
    b = true ↔ namespaceSkippingRequested E.cfg (nsOf E F.qname F.name) = .ok true ∨
      (∃ m, F.method = some m ∧ (E.cls m.parent).targs ≠ none ∧
        Listed E.cfg.functionsToSkip (stdName E ((E.cls m.parent).qname ++ c!"::" ++ F.name))) ∨
      ∃ t, UsesType F t ∧ ∃ i, Reaches t i ∧ skipClass E i = .ok true := by
  simp only [← listed_function_skip, ← listed_function_bind] at h ⊢
  obtain ⟨n1, n2, n3, n4⟩ : (¬ functionSkippingRequested E.cfg (functionQualifiedName E F true) = true) ∧
      (¬ functionBindingRequested E.cfg (functionQualifiedName E F true) = true) ∧
      (¬ functionSkippingRequested E.cfg (stdName E F.qname) = true) ∧
      (¬ functionBindingRequested E.cfg (stdName E F.qname) = true) := by
    cases h with
    | miss n1 h => cases h with
      | miss n2 h => cases h with
        | miss n3 h => cases h with
          | miss n4 h => exact ⟨n1, n2, n3, n4⟩
  unfold skipFunction at hb
  simp only [n1, n2, n3, n4, if_neg, not_false_iff, Bool.or_false, Bool.false_eq_true] at hb
  cases hn : namespaceSkippingRequested E.cfg (nsOf E F.qname F.name) with
  | error e => rw [hn] at hb; simp at hb
  | ok s =>
    rw [hn] at hb
    have := (anyM_ok hb).1
    rw [this]
    simp only [Bool.or_eq_true, Except.ok.injEq, or_assoc, mem_functionTypes, skipTy_true]
    refine or_congr Iff.rfl (or_congr ?_ Iff.rfl)
    cases hm : F.method with
    | none => simp
    | some m =>
      simp only [Bool.and_eq_true, Record.isSpecialization, Option.isSome_iff_ne_none, Option.some.injEq, exists_eq_left']

/-- C44. The question ends with an error only if two namespace entries contradict each other. -/
theorem C44_skip_error (F : Func) (e : QueryError) (h : skipFunction E F = .error e) :
    namespaceSkippingRequested E.cfg (nsOf E F.qname F.name) = .error e ∨
      ∃ t, UsesType F t ∧ ∃ i, Reaches t i ∧ skipClass E i = .error e := by
  unfold skipFunction at h
  simp only at h
  split at h
  · cases h
  · split at h
    · cases h
    · split at h
      · cases h
      · split at h
        · cases h
        · split at h
          · rename_i hn; cases h; exact .inl hn
          · obtain ⟨t, ht, he⟩ := anyM_error h
            refine .inr ⟨t, mem_functionTypes.1 ht, ?_⟩
            unfold skipTy viaClass at he
            cases hj : namedClass t with
            | none => rw [hj] at he; cases he
            | some j => rw [hj] at he; exact ⟨j, (namedClass_iff t j).1 hj, he⟩

/-- C44, from the file: a line `-function` with the signature of the function wins over every other line. -/
theorem C44_skip_from_file (F : Func) (content x : Str) (hr : readConfig {} content = .ok E.cfg)
    (hx : x ∈ given '-' c!"function" (getlines content)) (he : noSpaces x = noSpaces (functionQualifiedName E F true)) :
    skipFunction E F = .ok true := by
  apply C44_skip_entries
  apply FirstMatch.hit
  rw [← listed_function_skip]
  exact (C07_names_up_to_spaces_partial {} E.cfg content _ hr).2.2.2.1.2 (.inr ⟨x, hx, he⟩)

/-- C44. A function is requested if its name or signature is listed, if its namespace is requested, or if a type it uses leads to a
requested class; and only then. Missing: see `C44_bind_inline_namespace_false`. -/
theorem C44_bind_partial (F : Func) (b : Bool) (h : bindFunctionAsked E F = .ok b) :
    b = true ↔ Listed E.cfg.functionsToBind F.qname ∨ Listed E.cfg.functionsToBind (functionQualifiedName E F true) ∨
      namespaceBindingRequested E.cfg (nsOf E F.qname F.name) = .ok true ∨
      ∃ t, UsesType F t ∧ ∃ i, Reaches t i ∧ bindClass E i = .ok true := by
  simp only [← listed_function_bind]
  unfold bindFunctionAsked at h
  split at h
  · rename_i hl
    simp only [Bool.or_eq_true] at hl
    cases h
    simp only [true_iff]
    rcases hl with hl | hl
    · exact .inl hl
    · exact .inr (.inl hl)
  · rename_i hl
    simp only [Bool.or_eq_true, not_or] at hl
    simp only [hl.1, hl.2, false_or, Bool.false_eq_true]
    cases hn : namespaceBindingRequested E.cfg (nsOf E F.qname F.name) with
    | error e => rw [hn] at h; simp at h
    | ok s =>
      rw [hn] at h
      rw [(anyM_ok h).1]
      simp only [Except.ok.injEq, mem_functionTypes, bindTy_true]

/-- A free function without parameters. -/
def exampleFunction (name qname : Str) (ret : Ty) (params : List Param) : Func :=
  { exampleMethod name false ret params with qname := qname, method := none }

/-- C44 fails for the standard library of clang: `std::__1::f` is presented to the user as `std::f`, and `-function std::f` is
honoured, but `+function std::f` is not. -/
theorem C44_bind_inline_namespace_false :
    ∃ F : Func, stdName exampleEnv F.qname = c!"std::f" ∧
      skipFunction { exampleEnv with cfg := { functionsToSkip := [c!"std::f"] } } F = .ok true ∧
      bindFunctionAsked { exampleEnv with cfg := { functionsToBind := [c!"std::f"] } } F = .ok false :=
  ⟨exampleFunction c!"f" c!"std::__1::f" (.basic 0) [], by decide +kernel, by rfl, by rfl⟩

/-- C44 fails for pointers behind a typedef: `-class A` skips `f(A *)`, but not `f(AP)` with `typedef A * AP`. -/
theorem C44_typedef_pointer_false :
    skipFunction { exampleEnv with cfg := { classesToSkip := [c!"A"] } }
      (exampleFunction c!"f" c!"f" (.basic 0) [⟨c!"x", .ptr (.record 0), false⟩]) = .ok true ∧
    skipFunction { exampleEnv with cfg := { classesToSkip := [c!"A"] } }
      (exampleFunction c!"f" c!"f" (.basic 0) [⟨c!"x", .sugar 1 (.ptr (.record 0)), false⟩]) = .ok false ∧
    (Ty.sugar 1 (.ptr (.record 0))).canon = .ptr (.record 0) := ⟨by rfl, by rfl, rfl⟩

/-- The signature entry `+function f(int)` beats `-function f`. -/
example : FirstMatch
      [(Listed [c!"f"] c!"f(int)", true), (Listed [c!"f(int)"] c!"f(int)", false), (Listed [c!"f"] c!"f", true),
       (Listed [c!"f(int)"] c!"f", false)] (some false) := .miss (by decide) (.hit (by decide))

example : skipFunction { exampleEnv with cfg := { functionsToSkip := [c!"f"], functionsToBind := [c!"f(int)"] } }
      (exampleFunction c!"f" c!"f" (.basic 0) [⟨c!"x", .basic 0, false⟩]) = .ok false := by rfl

/-! ## C45: classes and enumerations -/

/-- C45. The rules for a class, in order: an entry for the specialised name, an entry for the bare name; within each, skipping first. -/
theorem C45_skip_entries (hw : E.Wellfounded) (i : Nat) (b : Bool)
    (h : FirstMatch
      [(Listed E.cfg.classesToSkip (classQualifiedName E (E.cls i)), true),
       (Listed E.cfg.classesToBind (classQualifiedName E (E.cls i)), false),
       (Listed E.cfg.classesToSkip (stdName E (E.cls i).qname), true),
       (Listed E.cfg.classesToBind (stdName E (E.cls i).qname), false)] (some b)) : skipClass E i = .ok b := by
  simp only [← listed_class_skip, ← listed_class_bind] at h
  rw [skipClass_eq E hw]
  cases h with
  | hit h => simp [h]
  | miss n h =>
    cases h with
    | hit h => simp [h, n]
    | miss n2 h =>
      cases h with
      | hit h => simp [h, n, n2]
      | miss n3 h =>
        cases h with
        | hit h => simp [h, n, n2, n3]
        | miss n4 h => cases h

/-- C45. Without such entries a class is skipped exactly if its namespace is skipped or one of its template arguments leads to a
skipped class. -/
theorem C45_skip_otherwise (hw : E.Wellfounded) (i : Nat) (b : Bool)
    (h : FirstMatch
      [(Listed E.cfg.classesToSkip (classQualifiedName E (E.cls i)), true),
       (Listed E.cfg.classesToBind (classQualifiedName E (E.cls i)), false),
       (Listed E.cfg.classesToSkip (stdName E (E.cls i).qname), true),
       (Listed E.cfg.classesToBind (stdName E (E.cls i).qname), false)] none) (hb : skipClass E i = .ok b) :
    b = true ↔ namespaceSkippingRequested E.cfg (nsOf E (E.cls i).qname (E.cls i).name) = .ok true ∨
      ∃ t, TypeArg (E.cls i) t ∧ ∃ j, Reaches t j ∧ skipClass E j = .ok true := by
  simp only [← listed_class_skip, ← listed_class_bind] at h
  obtain ⟨n1, n2, n3, n4⟩ : (¬ classSkippingRequested E.cfg (classQualifiedName E (E.cls i)) = true) ∧
      (¬ classBindingRequested E.cfg (classQualifiedName E (E.cls i)) = true) ∧
      (¬ classSkippingRequested E.cfg (stdName E (E.cls i).qname) = true) ∧
      (¬ classBindingRequested E.cfg (stdName E (E.cls i).qname) = true) := by
    cases h with
    | miss n1 h => cases h with
      | miss n2 h => cases h with
        | miss n3 h => cases h with
          | miss n4 h => exact ⟨n1, n2, n3, n4⟩
  rw [skipClass_eq E hw, if_neg n1, if_neg n2, if_neg n3, if_neg n4] at hb
  cases hn : namespaceSkippingRequested E.cfg (nsOf E (E.cls i).qname (E.cls i).name) with
  | error e => rw [hn] at hb; simp at hb
  | ok s =>
    rw [hn] at hb
    rw [(anyM_ok hb).1]
    simp only [Except.ok.injEq, mem_typeArgs, skipTy_true]

/-- C45. A class is requested if one of its names is listed; otherwise exactly if its namespace is requested, none of its template
arguments leads to a skipped class, and it is no specialisation or specialisations are to be bound. -/
theorem C45_bind (i : Nat) (b : Bool) (hb : bindClass E i = .ok b) :
    b = true ↔ Listed E.cfg.classesToBind (classQualifiedName E (E.cls i)) ∨ Listed E.cfg.classesToBind (stdName E (E.cls i).qname) ∨
      ((E.opts.bindClassTemplateSpecialization = true ∨ (E.cls i).targs = none) ∧
        namespaceBindingRequested E.cfg (nsOf E (E.cls i).qname (E.cls i).name) = .ok true ∧
        ¬ ∃ t, TypeArg (E.cls i) t ∧ ∃ j, Reaches t j ∧ skipClass E j = .ok true) := by
  simp only [← listed_class_bind]
  unfold bindClass at hb
  simp only at hb
  split at hb
  · rename_i hl
    simp only [Bool.or_eq_true] at hl
    cases hb
    simp only [true_iff]
    rcases hl with hl | hl
    · exact .inl hl
    · exact .inr (.inl hl)
  · rename_i hl
    simp only [Bool.or_eq_true, not_or] at hl
    simp only [hl.1, hl.2, false_or, Bool.false_eq_true]
    split at hb
    · rename_i hs
      cases hb
      simp only [Bool.and_eq_true, Bool.not_eq_true', Record.isSpecialization, Option.isSome_iff_ne_none] at hs
      simp [hs.1, hs.2]
    · rename_i hs
      have hs' : E.opts.bindClassTemplateSpecialization = true ∨ (E.cls i).targs = none := by
        cases h1 : E.opts.bindClassTemplateSpecialization with
        | true => exact .inl rfl
        | false =>
          refine .inr ?_
          simp only [h1, Bool.not_false, Bool.true_and, Record.isSpecialization] at hs
          simpa using hs
      cases hn : namespaceBindingRequested E.cfg (nsOf E (E.cls i).qname (E.cls i).name) with
      | error e => rw [hn] at hb; simp at hb
      | ok s =>
        rw [hn] at hb
        simp only at hb
        cases ha : anyM (skipTy E) false (E.cls i).typeArgs with
        | error e => rw [ha] at hb; simp at hb
        | ok a =>
          rw [ha] at hb
          have := (anyM_ok ha).1
          simp only [Bool.false_eq_true, false_or, mem_typeArgs, skipTy_true] at this
          rw [← this]
          simp only [Except.ok.injEq] at hb
          subst hb
          cases s <;> cases a <;> simp [hs']

/-- C45. A template argument that leads to a skipped class keeps a class from being bound by its namespace, at any depth of nesting:
nothing but an entry for the class itself can request it. -/
theorem C45_skipped_argument (hw : E.Wellfounded) (i j : Nat) (t : Ty) (ht : TypeArg (E.cls i) t) (hj : Reaches t j)
    (hs : skipClass E j = .ok true)
    (n1 : ¬ Listed E.cfg.classesToBind (classQualifiedName E (E.cls i))) (n2 : ¬ Listed E.cfg.classesToBind (stdName E (E.cls i).qname)) :
    (∀ b, bindClass E i = .ok b → b = false) ∧ (∀ b, skipClass E i = .ok b → b = true) := by
  constructor
  · intro b hb
    cases b with
    | false => rfl
    | true =>
      rcases (C45_bind E i true hb).1 rfl with h | h | h
      · exact absurd h n1
      · exact absurd h n2
      · exact absurd ⟨t, ht, j, hj, hs⟩ h.2.2
  · intro b hb
    by_cases h1 : Listed E.cfg.classesToSkip (classQualifiedName E (E.cls i))
    · have := C45_skip_entries E hw i true (.hit h1); rw [this] at hb; cases hb; rfl
    · by_cases h3 : Listed E.cfg.classesToSkip (stdName E (E.cls i).qname)
      · have := C45_skip_entries E hw i true (.miss h1 (.miss n1 (.hit h3))); rw [this] at hb; cases hb; rfl
      · exact (C45_skip_otherwise E hw i b (.miss h1 (.miss n1 (.miss h3 (.miss n2 .none)))) hb).2 (.inr ⟨t, ht, j, hj, hs⟩)

/-- C45, from the file: a line `-class` with the specialised name of a class wins over every other line. -/
theorem C45_skip_from_file (hw : E.Wellfounded) (i : Nat) (content x : Str) (hr : readConfig {} content = .ok E.cfg)
    (hx : x ∈ given '-' c!"class" (getlines content)) (he : noSpaces x = noSpaces (classQualifiedName E (E.cls i))) :
    skipClass E i = .ok true := by
  apply C45_skip_entries E hw
  apply FirstMatch.hit
  rw [← listed_class_skip]
  exact (C07_names_up_to_spaces_partial {} E.cfg content _ hr).2.1.2 (.inr ⟨x, hx, he⟩)

/-- C45. Enumerations: skip entries beat bind entries, which beat the namespace. -/
theorem C45_skip_enum (e : EnumD) :
    (stdName E e.qname ∈ E.cfg.enumsToSkip → skipEnum E e = .ok true) ∧
    (stdName E e.qname ∉ E.cfg.enumsToSkip → stdName E e.qname ∈ E.cfg.enumsToBind → skipEnum E e = .ok false) ∧
    (stdName E e.qname ∉ E.cfg.enumsToSkip → stdName E e.qname ∉ E.cfg.enumsToBind →
      skipEnum E e = namespaceSkippingRequested E.cfg (nsOf E e.qname e.name)) ∧
    (e.qname ∈ E.cfg.enumsToBind → bindEnumAsked E e = .ok true) ∧
    (e.qname ∉ E.cfg.enumsToBind → bindEnumAsked E e = namespaceBindingRequested E.cfg (nsOf E e.qname e.name)) := by
  unfold skipEnum bindEnumAsked enumSkippingRequested enumBindingRequested
  refine ⟨?_, ?_, ?_, ?_, ?_⟩ <;> intros <;> simp_all

/-- A program with classes `A` (number 0) and `V<A *>` (number 1). -/
def exampleTemplateEnv : Env :=
  { exampleEnv with
    cls := fun i => if i = 1 then { exampleRecord with name := c!"V", qname := c!"V", targs := some [⟨c!"A *", .type (.ptr (.record 0))⟩] } else exampleRecord
    cfg := { namespacesToBind := [[]], classesToSkip := [c!"A"] }
    argRank := id }

/-- The hypotheses of the class theorems are met: `V<A *>` is not listed, `A` is, so `V<A *>` is skipped. -/
example : exampleTemplateEnv.Wellfounded ∧ TypeArg (exampleTemplateEnv.cls 1) (.ptr (.record 0)) ∧ Reaches (.ptr (.record 0)) 0 ∧
    skipClass exampleTemplateEnv 0 = .ok true ∧ skipClass exampleTemplateEnv 1 = .ok true ∧ bindClass exampleTemplateEnv 1 = .ok false := by
  refine ⟨⟨?_, ?_, ?_⟩, ⟨_, rfl, _, List.mem_singleton_self _, rfl⟩, .ptr (.named .record), by rfl, by rfl, by rfl⟩
  · intro i b hb
    simp only [exampleTemplateEnv] at hb
    split at hb <;> simp [exampleRecord] at hb
  · intro i t ht j hj
    simp only [exampleTemplateEnv] at ht
    split at ht
    · rename_i hi
      simp [Record.typeArgs, Record.functionArgTypes, TArg.type?] at ht
      subst ht hi
      simp [Ty.target] at hj
      subst hj
      decide
    · simp [Record.typeArgs, Record.functionArgTypes, exampleRecord] at ht
  · intro i j hj
    simp only [exampleTemplateEnv] at hj
    split at hj <;> simp [Env.nestedClasses, exampleRecord] at hj

/-! ## C46: template arguments -/

theorem unpacked_eq (a : Str) :
    (if a.head? = some '<' && a.getLast? = some '>' then Str.substr a 1 (a.length - 2) else a) = unpacked a := by
  unfold unpacked
  by_cases h : a.head? = some '<' ∧ a.getLast? = some '>'
  · rw [if_pos (by simp [h.1, h.2]), if_pos h]
    cases a with
    | nil => simp at h
    | cons x xs => simp [Str.substr, List.dropLast_eq_take]
  · rw [if_neg h, if_neg (by simpa using h)]

theorem foldl_append_flatMap {α} (f : α → Str) (as : List α) (init : Str) :
    as.foldl (fun t a => t ++ f a) init = init ++ as.flatMap f := by
  induction as generalizing init with
  | nil => simp
  | cons a as ih => rw [List.foldl_cons, ih]; simp

/-- Text of a non-empty argument list before the last character is overwritten. -/
theorem commas_eq (xs : List Str) (h : xs ≠ []) : xs.flatMap (fun x => x ++ c!",") = List.intercalate c!"," xs ++ c!"," := by
  induction xs with
  | nil => exact absurd rfl h
  | cons x xs ih =>
    cases xs with
    | nil => simp [List.intercalate]
    | cons y ys =>
      rw [List.flatMap_cons, ih (by simp)]
      simp [List.intercalate]

theorem angle_of_commas (xs : List Str) (h : xs ≠ []) :
    (c!"<" ++ xs.flatMap (fun x => x ++ c!",")).dropLast ++ c!">" = angle xs := by
  rw [commas_eq xs h, ← List.append_assoc, List.dropLast_concat, angle, if_neg h]

theorem fixBool_intercalate (xs : List Str) :
    fixBooleanTypes (List.intercalate c!"," xs) = List.intercalate c!"," (xs.map fixBooleanTypes) := by
  induction xs with
  | nil => decide
  | cons x xs ih =>
    cases xs with
    | nil => simp [List.intercalate]
    | cons y ys =>
      have e : ∀ (a b : Str) (l : List Str), List.intercalate c!"," (a :: b :: l) = a ++ c!"," ++ List.intercalate c!"," (b :: l) := by
        intro a b l; simp [List.intercalate]
      rw [e, fixBool_append_seps c!"," (by decide) (by decide), ih]
      simp [List.intercalate]

theorem fixBool_angle (xs : List Str) : fixBooleanTypes (angle xs) = angle (xs.map fixBooleanTypes) := by
  unfold angle
  by_cases h : xs = []
  · subst h; decide
  · rw [if_neg h, if_neg (by simpa using h), List.append_assoc, fixBool_seps_left c!"<" (by decide),
      fixBool_seps_right c!">" (by decide), fixBool_intercalate, List.append_assoc]

/-- C46, partial, for classes: the argument list is printed as the non-empty arguments, separated by commas, in angle brackets; packs
are spliced in. Missing: the case that no non-empty argument is left, see `C46_class_false`. -/
theorem C46_class_partial (C : Record) (as : List TArg) (h : C.targs = some as)
    (hne : (as.map fun a => unpacked a.text).filter (· ≠ []) ≠ []) :
    classTemplateText C = angle (((as.map fun a => unpacked a.text).filter (· ≠ [])).map fixBooleanTypes) := by
  have hf : as.flatMap (fun a => classArgText a.text) =
      ((as.map fun a => unpacked a.text).filter (· ≠ [])).flatMap (fun x => x ++ c!",") := by
    clear h hne
    induction as with
    | nil => rfl
    | cons a as ih =>
      rw [List.flatMap_cons, ih, List.map_cons]
      simp only [classArgText, unpacked_eq]
      by_cases hu : unpacked a.text = []
      · simp [hu]
      · rw [if_pos (List.length_pos_iff.2 hu), List.filter_cons_of_pos (by simpa using hu), List.flatMap_cons]
  simp only [classTemplateText, h, foldl_append_flatMap]
  rw [hf, angle_of_commas _ hne, fixBool_angle]

/-- C46 for a class that is no specialisation: nothing is added to its name. -/
theorem C46_class_plain (C : Record) (h : C.targs = none) : classTemplateText C = [] := by
  simp only [classTemplateText, h]; decide

/-- C46 fails for a class whose arguments are all empty packs: `std::tuple<>` is printed as `std::tuple>`. -/
theorem C46_class_false : ∃ C : Record, C.qname = c!"tuple" ∧ C.targs = some [⟨c!"<>", .pack 0⟩] ∧
    classQualifiedName exampleEnv C = c!"tuple>" ∧ ¬ Balanced (classTemplateText C) :=
  ⟨{ exampleRecord with qname := c!"tuple", targs := some [⟨c!"<>", .pack 0⟩] }, rfl, rfl, by decide +kernel, by
    unfold Balanced; decide +kernel⟩

/-- What a template argument of a function contributes: nothing for an empty pack, the members of any other pack. -/
def functionArg (a : TArg) : Option Str :=
  match a.kind with
  | .pack size => if size = 0 then none else some (if a.text.length > 2 then a.text.tail.dropLast else a.text)
  | _ => some a.text

/-- C46 for functions: the name of a specialisation is followed by its arguments, separated by commas, in angle brackets, and by
nothing if there are no arguments; all in their normalised form. -/
theorem C46_function (F : Func) (as : List TArg) (h : F.targs = some as)
    (hk : F.templated = .memberSpecialization ∨ F.templated = .functionTemplateSpecialization) :
    functionTemplateText E F = stdName E (angle ((as.filterMap functionArg).map fixBooleanTypes)) := by
  have hf : as.flatMap functionArgText = (as.filterMap functionArg).flatMap (fun x => x ++ c!",") := by
    clear h
    induction as with
    | nil => rfl
    | cons a as ih =>
      rw [List.flatMap_cons, ih, List.filterMap_cons]
      unfold functionArgText functionArg
      cases a.kind with
      | pack size =>
        by_cases hs : size = 0
        · simp [hs]
        · simp only [hs, if_false, List.flatMap_cons]
          congr 2
          by_cases hl : a.text.length > 2
          · rw [if_pos hl, if_pos hl]
            cases hx : a.text with
            | nil => simp [hx] at hl
            | cons x xs => simp [Str.substr, List.dropLast_eq_take]
          · rw [if_neg hl, if_neg hl]
      | _ => simp
  have hc : (F.templated = .memberSpecialization || F.templated = .functionTemplateSpecialization) = true := by
    rcases hk with hk | hk <;> simp [hk]
  simp only [functionTemplateText, hc, if_true, h, foldl_append_flatMap]
  rw [hf]
  congr 1
  by_cases hne : as.filterMap functionArg = []
  · rw [hne]; decide
  · rw [angle_of_commas _ hne, if_neg, fixBool_angle]
    unfold angle
    rw [if_neg hne]
    simp

/-- C46. A function that is no specialisation gets no argument list. -/
theorem C46_function_plain (F : Func)
    (hk : F.templated ≠ .memberSpecialization ∧ F.templated ≠ .functionTemplateSpecialization) : functionTemplateText E F = [] := by
  have : (F.templated = .memberSpecialization || F.templated = .functionTemplateSpecialization) = false := by
    simp [hk.1, hk.2]
  simp only [functionTemplateText, this]
  have : applyNameMap [] = [] := by decide +kernel
  have hb : beginsWith [] c!"std::" = false := by decide
  simp only [stdName, standardName, Bool.false_eq_true, if_false, this, hb]
  decide

theorem depth_append (s t : Str) (d : Nat) : depth d (s ++ t) = (depth d s).bind fun e => depth e t := by
  induction s generalizing d with
  | nil => rfl
  | cons c cs ih =>
    simp only [List.cons_append, depth]
    split
    · exact ih _
    · split
      · split
        · rfl
        · exact ih _
      · exact ih _

theorem depth_shift (s : Str) (d e k : Nat) (h : depth d s = some e) : depth (d + k) s = some (e + k) := by
  induction s generalizing d with
  | nil => simp only [depth, Option.some.injEq] at h ⊢; omega
  | cons c cs ih =>
    simp only [depth] at h ⊢
    split
    · rename_i hc; rw [if_pos hc] at h; have := ih _ h; rw [show d + k + 1 = d + 1 + k by omega]; exact this
    · rename_i hc; rw [if_neg hc] at h
      split
      · rename_i hg
        rw [if_pos hg] at h
        split at h
        · cases h
        · rename_i hd
          rw [if_neg (by omega)]
          have := ih _ h
          rw [show d + k - 1 = d - 1 + k by omega]; exact this
      · rename_i hg; rw [if_neg hg] at h; exact ih _ h

/-- C46. An argument list made of balanced arguments is balanced, whatever the number and nesting of the arguments. -/
theorem C46_balanced (xs : List Str) (h : ∀ x ∈ xs, Balanced x) : Balanced (angle xs) := by
  unfold angle
  by_cases hne : xs = []
  · simp [hne, Balanced, depth]
  · rw [if_neg hne]
    have key : depth 1 (List.intercalate c!"," xs) = some 1 := by
      clear hne
      induction xs with
      | nil => rfl
      | cons x xs ih =>
        have hx : depth 1 x = some 1 := depth_shift x 0 0 1 (h x (by simp))
        cases xs with
        | nil => simpa [List.intercalate] using hx
        | cons y ys =>
          have e : List.intercalate c!"," (x :: y :: ys) = x ++ c!"," ++ List.intercalate c!"," (y :: ys) := by simp [List.intercalate]
          rw [e, depth_append, depth_append, hx]
          have := ih (fun z hz => h z (by simp [hz]))
          simpa [depth] using this
    unfold Balanced
    have e : c!"<" ++ List.intercalate c!"," xs ++ c!">" = c!"<" ++ (List.intercalate c!"," xs ++ c!">") := by simp
    rw [e, depth_append]
    simp only [depth, if_true, Option.bind_some]
    rw [depth_append, key]
    decide

/-- The pack `<B, C>` is spliced in, the empty pack `<>` vanishes, `_Bool` is normalised. -/
example : classTemplateText { exampleRecord with
      targs := some [⟨c!"_Bool", .other⟩, ⟨c!"<B, C<int>>", .pack 2⟩, ⟨c!"<>", .pack 0⟩] } = c!"<bool,B, C<int>>" := by decide +kernel

example : functionTemplateText exampleEnv { exampleFunction c!"f" c!"f" (.basic 0) [] with
      templated := .functionTemplateSpecialization, targs := some [⟨c!"<>", .pack 0⟩] } = [] := by decide +kernel

end Binder
