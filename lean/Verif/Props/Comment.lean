import Verif.Props.Strings
import Verif.Props.ClassHead
import Verif.Lemmas.Comment

/-!
# C92: documentation comments reach Python
-/

namespace Binder

open Cxx Spec

variable (E : Env)

/-- C92. The text taken from a comment is all its pieces of text, in order and complete, with nothing but line ends before, between and
after them, and with a line end at least between pieces of different lines. -/
theorem C92_text_partial (c : Comment) (lo hi : Nat) (h : InOrder lo c hi) : Consists none (pieces c) (commentText (some c)) := by
  have last : ∀ after' s' L, Separated after' s' L hi → Consists after' [] (s' ++ []) := by
    intro after' s' L ha; rw [List.append_nil]; exact .nil ha.1
  cases h with
  | text h1 h2 =>
    rename_i l s
    have := getText_consists (.text l s) (after := none) (s := []) (ps := []) (rest := []) (.text h1 h2)
      ⟨(fun c h => by cases h), fun k hk => by cases hk⟩ fun a s ha => last a s _ ha
    simpa [commentText, getText] using this
  | node h1 h2 =>
    rename_i l p w cs
    have := getTextLoop_consists cs (L := 0) (after := none) (s := if p then c!"\n" else []) (ps := []) (rest := []) (Nat.zero_le _) h2
      ⟨newlines_if _, fun k hk => by cases hk⟩ fun a s ha => last a s _ ha
    simpa only [commentText, getText, pieces, List.append_nil] using this

theorem getTextLoop_append (a b : List Comment) (L : Nat) : ∃ M, getTextLoop (a ++ b) L = getTextLoop a L ++ getTextLoop b M ∧
    M = (a.getLast?.map (·.line)).getD L := by
  induction a generalizing L with
  | nil => exact ⟨L, rfl, rfl⟩
  | cons c cs ih =>
    have e : (if L ≠ c.line then c.line else L) = c.line := by split <;> simp_all
    obtain ⟨M, h1, h2⟩ := ih c.line
    refine ⟨M, ?_, ?_⟩
    · simp only [List.cons_append, getTextLoop, e, h1, List.append_assoc]
    · rw [h2]
      cases cs with
      | nil => rfl
      | cons d ds => rw [List.getLast?_cons_cons]; obtain ⟨x, hx⟩ : ∃ x, (d :: ds).getLast? = some x := ⟨_, List.getLast?_eq_some_getLast (by simp)⟩
                     rw [hx]; rfl

/-- C92. Two pieces of one line stay together if they have the same parent and there are only commands without text between them. -/
theorem C92_same_line (line : Nat) (paragraph : Bool) (written : Str) (before between after : List Comment) (l : Nat) (a b : Str) (previous : Nat)
    (h : ∀ c ∈ between, ∃ w, c = .node l false w []) :
    a ++ b <:+: getText (.node line paragraph written (before ++ .text l a :: (between ++ .text l b :: after))) previous := by
  have hb : ∀ rest, getTextLoop (between ++ rest) l = getTextLoop rest l := by
    intro rest
    induction between with
    | nil => rfl
    | cons c cs ih =>
      obtain ⟨w, rfl⟩ := h c List.mem_cons_self
      have := ih fun d hd => h d (List.mem_cons_of_mem _ hd)
      simp [Comment.line, getText, getTextLoop, this]
  obtain ⟨M, h1, _⟩ := getTextLoop_append before (.text l a :: (between ++ .text l b :: after)) previous
  refine ⟨(if paragraph then c!"\n" else []) ++ getTextLoop before previous ++ (if M ≠ l then c!"\n" else []), getTextLoop after l, ?_⟩
  by_cases hM : M = l
  · subst hM; simp [getText, h1, getTextLoop, Comment.line, hb]
  · simp [getText, h1, getTextLoop, Comment.line, hb, hM]

/-- The documentation that Python shows for a comment: its text without the blanks and line ends at the beginning. -/
def shown (c : Option Comment) : Str := (commentText c).dropWhile fun x => x == ' ' || x == '\n'

/-- The characters that C++ reads in a string literal as they are. -/
def Plain (s : Str) : Prop := ∀ c ∈ s, c ≠ '"' ∧ c ≠ '\\' ∧ c ≠ '\n'

theorem readLiteral_plain {s : Str} (h : Plain s) : readLiteral s = some s := by
  induction s with
  | nil => rfl
  | cons c cs ih =>
    obtain ⟨h1, h2, h3⟩ := h c List.mem_cons_self
    have := ih fun d hd => h d (List.mem_cons_of_mem _ hd)
    rw [readLiteral]
    · simp [this]
    all_goals (intros; simp_all)

theorem readLiteral_docString_append (t rest : Str) :
    readLiteral (docString t ++ rest) = (readLiteral rest).map ((t.dropWhile fun c => c == ' ' || c == '\n') ++ ·) := by
  rw [docString_eq]
  generalize (t.dropWhile fun c => c == ' ' || c == '\n') = u
  induction u with
  | nil => simp
  | cons c cs ih => rw [List.flatMap_cons, List.append_assoc, readLiteral_escape, ih, Option.map_map]; rfl

/-- What a function's documentation says about its C++ type. -/
def signature (F : Func) : Str :=
  stdName E (F.qname ++ c!"(" ++ functionArguments E F ++ c!")" ++ maybeConst F ++ c!" --> " ++ stdTy E F.ret)

/-- C92 for functions and methods. Exactly one of the `def` statements of a function, the one for all arguments, has a documentation string;
C++ reads it as the text of the comment, followed by the function's C++ type. Missing: functions that are bound by a lambda also for all
arguments, see `C92_variadic_false`. -/
theorem C92_function_partial (module : Str) (F : Func) (parent : Option Nat) (c : Option Comment) (hc : F.comment = commentText c)
    (hv : F.isVariadic = false) (hp : Plain (signature E F)) :
    ∃ (comment : Str) (first : List Def) (last : Def),
      bindFunctionText E module F parent false = comment ++ ((first ++ [last]).map fun x => module ++ x.text ++ c!"\n").flatten ∧
      (∀ x ∈ first, x.doc = []) ∧ last.keywords = F.params.map (·.name) ∧
      readLiteral last.doc = some (shown c ++ (if shown c = [] then [] else c!"\n\n") ++ c!"C++: " ++ signature E F) := by
  have hle := firstArity_le F
  have har : arities (firstArity F) F.params.length = List.range' (firstArity F) (F.params.length - firstArity F) ++ [F.params.length] := by
    unfold arities
    rw [Nat.sub_add_comm hle, List.range'_concat]
    congr 2; omega
  refine ⟨if E.opts.annotateFunctions then signatureComment E F false else [], (List.range' (firstArity F) (F.params.length - firstArity F)).map fun k => overloadDef E F k parent false,
    overloadDef E F F.params.length parent false, ?_, ?_, ?_, ?_⟩
  · rw [bindFunctionText_eq, har, List.map_append, List.map_singleton]
  · intro x hx
    obtain ⟨k, hk, rfl⟩ := List.mem_map.1 hx
    rw [List.mem_range'_1] at hk
    simp only [overloadDef]
    rw [if_neg]; simp; omega
  · simp [overloadDef]
  · simp only [overloadDef, hv, Bool.or_false, Bool.not_false, Bool.and_true, decide_true, if_true, functionDoc]
    have hlen : (docString F.comment).length ≠ 0 ↔ shown c ≠ [] := by
      rw [docString_eq, hc]
      show _ ↔ (commentText c).dropWhile _ ≠ []
      generalize List.dropWhile _ _ = u
      cases u with
      | nil => simp
      | cons d ds =>
        rw [List.flatMap_cons, List.length_append]
        have : 0 < (docEscape d).length := by unfold docEscape; repeat (first | split | simp)
        constructor
        · intro _ h; cases h
        · intro _; omega
    have hsig : readLiteral (c!"C++: " ++ signature E F) = some (c!"C++: " ++ signature E F) := by
      apply readLiteral_plain
      intro d hd
      rcases List.mem_append.1 hd with h | h
      · exact (by decide : ∀ d ∈ c!"C++: ", d ≠ '"' ∧ d ≠ '\\' ∧ d ≠ '\n') d h
      · exact hp d h
    by_cases h : shown c = []
    · rw [if_neg (by rw [hlen]; simp [h]), List.append_assoc, readLiteral_docString_append]
      show (readLiteral (c!"C++: " ++ signature E F)).map _ = _
      rw [hsig, hc]
      simp [h, show (commentText c).dropWhile _ = [] from h]
    · rw [if_pos (hlen.2 h), List.append_assoc, List.append_assoc, readLiteral_docString_append]
      show (readLiteral ('\\' :: 'n' :: '\\' :: 'n' :: (c!"C++: " ++ signature E F))).map _ = _
      rw [readLiteral, readLiteral, hsig, hc]
      simp [h]; rfl

/-- C92 for classes. -/
theorem C92_class (i : Nat) (c : Option Comment) (hc : (E.cls i).comment = commentText c) (hn : (E.cls i).isAnonymous = false) :
    ∃ (before : Str) (d : ClassDef), classHead E i = before ++ d.text ∧ d.pyName = pythonClassName E (E.cls i) ∧ readLiteral d.doc = some (shown c) :=
  ⟨beforeClass E i, classDef E i, classHead_eq E i hn, rfl, by show readLiteral (docString _) = _; rw [C18_docstring_roundtrip, hc]; rfl⟩

/-- C92 for enumerations. -/
theorem C92_enum (module : Str) (e : EnumD) (c : Option Comment) (hc : e.comment = commentText c) :
    ∃ literal rest, bindEnumText E module e = c!"\tpybind11::enum_<" ++ e.qname ++ c!">(" ++ module ++ c!", \"" ++ e.name ++ c!"\"" ++
      (if e.isScoped then [] else c!", pybind11::arithmetic()") ++ c!", \"" ++ literal ++ c!"\"" ++ rest ∧ readLiteral literal = some (shown c) := by
  obtain ⟨o, h1, h2⟩ := C53_values E module e
  refine ⟨docString e.comment, (match moduleLocalRequested E.cfg (nsOf E e.qname e.name) with | .ok false => [] | _ => c!", pybind11::module_local()") ++
    c!")" ++ enumValues e.enumerators ++ (if e.isScopedUsingClassTag then [] else c!"\n\t\t.export_values()") ++ c!";\n\n", ?_, by rw [C18_docstring_roundtrip, hc]; rfl⟩
  · rw [h1, h2]
    simp only [List.append_assoc]
    congr

/-- C92 is false for what commands say: of `@param x the size` only `the size` is left. -/
theorem C92_command_false : ∃ (c : Comment) (lo hi : Nat), InOrder lo c hi ∧
    c = .node 1 false [] [.node 1 true [] [.text 1 c!" "], .node 1 false c!"@param x" [.node 1 true [] [.text 1 c!" the size"]]] ∧
    shown (some c) = c!"the size" :=
  ⟨_, 1, 1, .node (Nat.le_refl _) (.cons (.node (Nat.le_refl _) (.cons (.text (Nat.le_refl _) (Nat.le_refl _)) (.nil (Nat.le_refl _))))
    (.cons (.node (Nat.le_refl _) (.cons (.node (Nat.le_refl _) (.cons (.text (Nat.le_refl _) (Nat.le_refl _)) (.nil (Nat.le_refl _))))
      (.nil (Nat.le_refl _)))) (.nil (Nat.le_refl _)))), rfl, by decide +kernel⟩

/-- The hypotheses of `C92_text_partial` are met by `/// Gives\n/// the \c size of \n/// \n/// all`: the text has three lines. -/
example : let c : Comment := .node 1 false [] [.node 1 true [] [.text 1 c!" Gives", .text 2 c!" the ", .node 2 false c!"\\c size" [], .text 2 c!" of "],
      .node 4 true [] [.text 4 c!" all"]]
    InOrder 1 c 4 ∧ commentText (some c) = c!"\n\n Gives\n the  of \n\n all" ∧ shown (some c) = c!"Gives\n the  of \n\n all" := by
  refine ⟨.node (by decide) (.cons (mid := 2) (.node (by decide) (.cons (mid := 1) (.text (by decide) (by decide)) (.cons (mid := 2) (.text (by decide) (by decide))
    (.cons (mid := 2) (.node (by decide) (.nil (by decide))) (.cons (mid := 2) (.text (by decide) (by decide)) (.nil (by decide)))))))
    (.cons (mid := 4) (.node (by decide) (.cons (mid := 4) (.text (by decide) (by decide)) (.nil (by decide)))) (.nil (by decide)))), by decide +kernel, by decide +kernel⟩

/-- C92 is false for functions with `...`: no `def` statement has their documentation. -/
theorem C92_variadic_false (module : Str) (F : Func) (parent : Option Nat) (hv : F.isVariadic = true) (comment : Str) :
    ∃ (before : Str) (defs : List Def),
      bindFunctionText E module { F with comment := comment } parent false = before ++ (defs.map fun x => module ++ x.text ++ c!"\n").flatten ∧
      ∀ x ∈ defs, x.doc = [] := by
  refine ⟨_, _, bindFunctionText_eq E module _ parent false, ?_⟩
  intro x hx
  obtain ⟨k, _, rfl⟩ := List.mem_map.1 hx
  simp [overloadDef, hv]

example : let F := { exampleMethod c!"f" false (.basic 0) [] with isVariadic := true, comment := c!"Important." }
    functionBindable exampleEnv F = true ∧ bindFunctionText exampleEnv c!"\tcl" F (some 0) false =
      c!"\tcl.def(\"f\", [](A &o) -> int { return o.f(); }, \"\");\n" := by
  decide +kernel

/-- The hypotheses of `C92_function_partial` are met. -/
example : let F := { exampleMethod c!"f" false (.basic 0) [] with comment := commentText (some (.node 1 false [] [.node 1 true [] [.text 1 c!" Says \"x\""]])) }
    Plain (signature exampleEnv F) ∧ bindFunctionText exampleEnv c!"\tcl" F (some 0) false =
      c!"\tcl.def(\"f\", (int (A::*)()) &A::f, \"Says \\\"x\\\"\\n\\nC++: A::f() --> int\");\n" := by
  unfold Plain
  decide +kernel

/-- C92 is false for constructors: their text does not depend on their comment. -/
theorem C92_constructor_false (i : Nat) (t : Func) (comment : Str) :
    itemText E i (.ctor { t with comment := comment }) = itemText E i (.ctor t) := rfl

end Binder
