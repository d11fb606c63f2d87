import Verif.Lemmas.Bool
import Verif.Lemmas.Mangle

/-!
# Properties C12-C19, C58: the string helpers of `source/util.cpp`
-/

namespace Binder

open Spec

/-! ## C12: `replace` -/

/-- The C++ loop terminates for every non-empty pattern and returns `replaceAll`. -/
theorem C12_replace_loop (s frm to : Str) (h : frm ≠ []) :
    Loop.Returns (replaceStep frm to) (s, 0) (replaceAll s frm to) := by
  simpa [replaceAll] using replace_loop_aux (frm := frm) (to := to) h s.length [] s (Nat.le_refl _)

/-- The loop returns `r` exactly when `r` is `s` with each leftmost non-overlapping occurrence substituted. -/
theorem C12_replace_spec (s frm to r : Str) (h : frm ≠ []) :
    Loop.Returns (replaceStep frm to) (s, 0) r ↔ Substitutes frm to s r := by
  constructor
  · intro hr
    have := hr.unique (C12_replace_loop s frm to h)
    subst this
    exact substitutes_replaceGo h s.length s (Nat.le_refl _)
  · intro hr
    rw [substitutes_unique_aux h hr]
    exact C12_replace_loop s frm to h

/-- Substitution always has exactly one result, so the loop terminates on every input. -/
theorem C12_substitution_total_unique (s frm to : Str) (h : frm ≠ []) : ∃ r, Substitutes frm to s r ∧ ∀ r', Substitutes frm to s r' → r' = r :=
  ⟨replaceAll s frm to, substitutes_replaceGo h s.length s (Nat.le_refl _), fun _ hr => substitutes_unique_aux h hr⟩

/-- With an empty pattern the loop never ends, whatever the string. -/
theorem C12_replace_empty_diverges (s to : Str) : Loop.Diverges (replaceStep [] to) (s, 0) := by
  apply Loop.diverges_of_invariant (fun st => st.2 ≤ st.1.length)
  · rintro ⟨r, i⟩ hi
    simp only at hi
    have hf : Str.findFrom r [] i = some i := by
      rw [Str.findFrom_eq_some_iff]
      exact ⟨Nat.le_refl _, hi, by simp, fun j h1 h2 => by omega⟩
    refine ⟨(Str.replaceAt r i 0 to, i + to.length), by simp [replaceStep, hf], ?_⟩
    simp [Str.replaceAt]; omega
  · simp

/-- Non-vacuity: overlapping occurrences and a replacement that contains the pattern. -/
example : Loop.Returns (replaceStep c!"aa" c!"aaa") (c!"aaaaab", 0) c!"aaaaaaab" := by
  have := C12_replace_loop c!"aaaaab" c!"aa" c!"aaa" (by decide)
  rwa [show replaceAll c!"aaaaab" c!"aa" c!"aaa" = c!"aaaaaaab" by decide] at this

/-! ## C58: prefix and suffix tests -/

theorem C58_begins_with (source pre : Str) : beginsWith source pre = true ↔ ∃ rest, source = pre ++ rest := by
  rw [beginsWith_iff]
  exact ⟨fun ⟨r, h⟩ => ⟨r, h.symm⟩, fun ⟨r, h⟩ => ⟨r, h.symm⟩⟩

theorem C58_ends_with (source suf : Str) : endsWith source suf = true ↔ ∃ front, source = front ++ suf := by
  unfold endsWith
  split
  · rename_i h
    constructor
    · simp
    · rintro ⟨f, rfl⟩; simp at h; omega
  · rename_i h
    unfold Str.compareAt
    rw [List.take_of_length_le (by simp; omega)]
    simp only [beq_iff_eq]
    constructor
    · intro e; 
      refine ⟨source.take (source.length - suf.length), ?_⟩
      have := List.take_append_drop (source.length - suf.length) source
      rw [e] at this
      exact this.symm
    · rintro ⟨f, rfl⟩; simp

example : beginsWith c!"std::vector" c!"std::" = true ∧ endsWith c!"a.hpp" c!".hpp" = true ∧ endsWith c!"x" c!"xx" = false := by decide

/-! ## C13: `split` -/

/-- For a one-character separator `split` returns the lines of the buffer. -/
theorem C13_split_lines (buffer : Str) (c : Char) : IsLines c buffer (split buffer [c]) := isLines_split c buffer

/-- The lines of a buffer are unique, so `IsLines` pins the result down. -/
theorem C13_lines_unique (buffer : Str) (c : Char) (ls : List Str) (h : IsLines c buffer ls) : split buffer [c] = ls :=
  isLines_unique (isLines_split c buffer) h

/-- Splitting is a left inverse of writing out separator-terminated lines. -/
theorem C13_split_join (c : Char) (ls : List Str) (h : ∀ l ∈ ls, c ∉ l) : split (terminated c ls) [c] = ls :=
  splitGo_terminated c ls h

/-- The round trip fails for separators of two characters: `split("a::b", "::")` is `["a", ":b"]`. -/
theorem C13_split_multichar_false :
    ¬ ∀ (buffer sep : Str), sep ≠ [] → sep.intercalate (split buffer sep) = buffer ∨ sep.intercalate (split buffer sep) ++ sep = buffer := by
  intro h
  have := h c!"a::b" c!"::" (by decide)
  revert this
  decide

example : split c!"a\n\nb\n" c!"\n" = [c!"a", c!"", c!"b"] := by decide

/-! ## C14: `indent` -/

/-- The lines of the indented code are the lines of the code, the non-empty ones with the indentation in front; every line is
ended by a newline. -/
theorem C14_indent_lines (code ind : Str) (h : '\n' ∉ ind) :
    IsLines '\n' (indent code ind) ((split code c!"\n").map fun l => if l = [] then [] else ind ++ l) ∧
    (indent code ind = [] ∨ (indent code ind).getLast? = some '\n') := by
  have hno : ∀ l ∈ (split code c!"\n").map (fun l => if l = [] then [] else ind ++ l), '\n' ∉ l := by
    intro l hl
    simp only [List.mem_map] at hl
    obtain ⟨l', hl', rfl⟩ := hl
    have := (isLines_split '\n' code).1 l' hl'
    split
    · simp
    · simp [h, this]
  have hend : ∀ ls : List Str, terminated '\n' ls = [] ∨ (terminated '\n' ls).getLast? = some '\n' := by
    intro ls
    induction ls with
    | nil => simp [terminated]
    | cons x xs ih =>
      right
      simp only [terminated]
      rcases ih with e | e
      · rw [e]; simp
      · rw [List.getLast?_append]
        cases hx : terminated '\n' xs with
        | nil => simp [hx] at e
        | cons a b =>
          rw [hx] at e
          rw [List.getLast?_cons_cons, e]; simp
  rw [indent_eq_terminated]
  refine ⟨⟨hno, ?_⟩, hend _⟩
  rw [if_pos]
  exact hend _

/-- Removing the indentation from the lines of the result gives back the lines of the code. -/
theorem C14_unindent (code ind : Str) (h : '\n' ∉ ind) :
    (split (indent code ind) c!"\n").map (fun l => if l = [] then [] else l.drop ind.length) = split code c!"\n" := by
  rw [C13_lines_unique _ '\n' _ (C14_indent_lines code ind h).1, List.map_map]
  conv => rhs; rw [← List.map_id (split code c!"\n")]
  apply List.map_congr_left
  intro l _
  simp only [Function.comp_apply, id_eq]
  by_cases hl : l = []
  · simp [hl]
  · simp [hl]

example : indent c!"a\n\nb" c!"\t" = c!"\ta\n\n\tb\n" := by decide

/-! ## C15: `trim` -/

theorem C15_trim (s : Str) : IsTrimmed s (trim s) := isTrimmed_trim s

theorem C15_trim_unique (s t : Str) (h : IsTrimmed s t) : trim s = t := isTrimmed_unique (isTrimmed_trim s) h

theorem C15_trim_idempotent (s : Str) : trim (trim s) = trim s :=
  C15_trim_unique _ _ ⟨⟨[], [], by simp, by simp, by simp⟩, (isTrimmed_trim s).2.1, (isTrimmed_trim s).2.2⟩

example : trim c!" \t a b\t " = c!"a b" ∧ trim c!" \t" = [] := by decide

/-! ## C16: namespaces -/

/-- If `::` occurs, base and last namespace are the parts before and after its last occurrence. -/
theorem C16_base_last (ns : Str) (h : c!"::" <:+: ns) :
    ns = baseNamespace ns ++ c!"::" ++ lastNamespace ns ∧ ¬ c!"::" <:+: lastNamespace ns := by
  cases hf : Str.rfind c!"::" ns with
  | none => exact absurd h (not_infix_iff.mpr (Str.rfind_none hf))
  | some f =>
    obtain ⟨h1, h2⟩ := colons_infix_of_rfind hf
    have hl : lastNamespace ns = ns.drop (f + 2) := by
      unfold lastNamespace; rw [hf]; simp only [Str.substr]
      rw [List.take_of_length_le]; simp; omega
    have hb : baseNamespace ns = ns.take f := by
      unfold baseNamespace; rw [hf]; simp [Str.substr]
    rw [hl, hb]
    refine ⟨h1, ?_⟩
    rw [not_infix_iff]
    intro j hj
    rw [List.drop_drop]
    exact (Str.rfind_some hf).2.2 (f + 2 + j) (by omega) (by simp at hj; omega)

/-- Without `::` the base is empty and the last component is the whole name. -/
theorem C16_base_last_none (ns : Str) (h : ¬ c!"::" <:+: ns) : baseNamespace ns = [] ∧ lastNamespace ns = ns := by
  have : Str.rfind c!"::" ns = none := by rw [Str.rfind_eq_none_iff]; exact not_infix_iff.mp h
  simp [baseNamespace, lastNamespace, this]

/-- Going to the base namespace shortens every non-empty name, so walking up ends. -/
theorem C16_base_shorter (ns : Str) (h : ns ≠ []) : (baseNamespace ns).length < ns.length := baseNamespace_length ns h

example : baseNamespace c!"core::pose::motif" = c!"core::pose" ∧ lastNamespace c!"core::pose::motif" = c!"motif" := by decide

/-! ## C17: `fix_boolean_types` -/

/-- The C++ loop terminates on every string and returns the left-to-right scan `fixBooleanTypes`. -/
theorem C17_fix_boolean_types_loop (ty : Str) : Loop.Returns fixBoolStep (ty, 0) (fixBooleanTypes ty) := by
  simpa [fixBooleanTypes] using fixBool_loop_aux ty.length [] ty (Nat.le_refl _)

/-- Running the rewrite on its own result changes nothing. -/
theorem C17_idempotent (ty : Str) : fixBooleanTypes (fixBooleanTypes ty) = fixBooleanTypes ty :=
  fixBoolGo_idem_aux ty.length ty none none (Nat.le_refl _) rfl

/-- A string that does not contain `_Bool` is returned unchanged. -/
theorem C17_identity (ty : Str) (h : ¬ c!"_Bool" <:+: ty) : fixBooleanTypes ty = ty := by
  have := fixBoolGo_skip (p := none) ty [] (by
    intro j hj; rw [List.append_nil]; exact (not_infix_iff.mp h) j (by omega))
  simpa [fixBooleanTypes, fixBoolGo] using this

/-- The full claim (exactly the identifiers `_Bool` are rewritten) is false: underscores are not taken for identifier characters,
so `_Bool_t` becomes `bool_t`. -/
theorem C17_whole_identifier_false : ¬ ∀ ty : Str, fixBooleanTypes ty = replaceIdent c!"_Bool" c!"bool" ty := by
  intro h
  have := h c!"_Bool_t"
  revert this
  decide

/-- The claim holds for every string that contains neither `__Bool` nor `_Bool_`. Missing: those strings (see
`C17_whole_identifier_false`). -/
theorem C17_whole_identifier_partial (ty : Str) (h1 : ¬ c!"__Bool" <:+: ty) (h2 : ¬ c!"_Bool_" <:+: ty) :
    fixBooleanTypes ty = replaceIdent c!"_Bool" c!"bool" ty := by
  have := fixBool_tokens_aux ty.length ty [] (Nat.le_refl _) (by simpa using ⟨h1, h2⟩) (by simp)
  exact this

example : ¬ c!"__Bool" <:+: c!"std::pair<_Bool, A_Bool>" ∧ ¬ c!"_Bool_" <:+: c!"std::pair<_Bool, A_Bool>" ∧
    fixBooleanTypes c!"std::pair<_Bool, A_Bool>" = c!"std::pair<bool, A_Bool>" := by decide

/-! ## C18: documentation strings -/

/-- The text between the quotes is a well-formed literal body and denotes the comment without its leading blanks and newlines. -/
theorem C18_docstring_roundtrip (text : Str) :
    readLiteral (docString text) = some (text.dropWhile fun c => c == ' ' || c == '\n') := by
  rw [docString_eq, readLiteral_flatMap]

/-- Two comments with the same documentation string are equal up to leading blanks and newlines. -/
theorem C18_docstring_injective (t u : Str) (h : docString t = docString u) :
    (t.dropWhile fun c => c == ' ' || c == '\n') = u.dropWhile fun c => c == ' ' || c == '\n' := by
  have h1 := C18_docstring_roundtrip t
  rw [h, C18_docstring_roundtrip u] at h1
  exact (Option.some.inj h1).symm

example : docString c!"\n say \"\\n\"\nok" = c!"say \\\"\\\\n\\\"\\nok" := by decide

/-! ## C19: mangled names -/

/-- No separator character is left. -/
theorem C19_no_separators (name : Str) (mark : Bool) : ∀ c ∈ mangleTypeName name mark, isMangleSep c = false := by
  have hloop : ∀ c ∈ mangleLoop [] name, isMangleSep c = false := by
    intro c hc
    rcases mem_mangleLoop hc with h | h | h
    · simp at h
    · rw [h]; decide
    · exact h.2
  intro c hc
  unfold mangleTypeName at hc
  simp only at hc
  split at hc
  · simp only [List.mem_append, List.mem_singleton] at hc
    rcases hc with hc | hc
    · rcases mem_replaceGo hc with hc | hc
      · rcases mem_replaceGo hc with hc | hc
        · exact hloop c hc
        · have : ∀ c ∈ c!"_star_", isMangleSep c = false := by decide
          exact this c hc
      · have : ∀ c ∈ c!"_ref_", isMangleSep c = false := by decide
        exact this c hc
    · rw [hc]; decide
  · exact hloop c hc

/-- A marked template name has no `*` and no `&`, and ends with `t`. -/
theorem C19_template_names (name : Str) (h : ∃ c ∈ name, c = '<' ∨ c = '>' ∨ c = ',') :
    '*' ∉ mangleTypeName name true ∧ '&' ∉ mangleTypeName name true ∧ (mangleTypeName name true).getLast? = some 't' := by
  have ht : mangleIsTemplate name = true := by
    obtain ⟨c, hc, h⟩ := h
    simp only [mangleIsTemplate, List.any_eq_true]
    exact ⟨c, hc, by rcases h with h | h | h <;> simp [h]⟩
  have e : mangleTypeName name true =
      replaceAll (replaceAll (mangleLoop [] name) c!"*" c!"_star_") c!"&" c!"_ref_" ++ ['t'] := by
    simp [mangleTypeName, ht]
  rw [e, replaceAll_single, replaceAll_single]
  refine ⟨?_, ?_, by simp⟩
  · simp only [List.mem_append, List.mem_flatMap, List.mem_singleton, not_or, not_exists, not_and]
    refine ⟨?_, by decide⟩
    rintro x ⟨y, _, hx⟩ hm
    split at hm
    · revert hm; decide
    · simp at hm
      subst hm
      split at hx
      · revert hx; decide
      · simp at hx; subst hx; simp_all
  · simp only [List.mem_append, List.mem_flatMap, List.mem_singleton, not_or, not_exists, not_and]
    refine ⟨?_, by decide⟩
    rintro x ⟨y, _, hx⟩ hm
    split at hm
    · revert hm; decide
    · simp at hm
      subst hm
      simp_all

/-- Nothing but separators and underscores is added or lost in a name without template arguments (or when templates are not
marked): the other characters are kept in order. -/
theorem C19_other_characters_kept (name : Str) (mark : Bool) (h : mark = false ∨ ∀ c ∈ name, c ≠ '<' ∧ c ≠ '>' ∧ c ≠ ',') :
    (mangleTypeName name mark).filter (· ≠ '_') = name.filter (fun c => !isMangleSep c && c ≠ '_') := by
  have e : mangleTypeName name mark = mangleLoop [] name := by
    unfold mangleTypeName
    simp only
    rw [if_neg]
    rcases h with h | h
    · simp [h]
    · simp only [Bool.and_eq_true, not_and]
      intro ht
      exfalso
      simp only [mangleIsTemplate, List.any_eq_true] at ht
      obtain ⟨c, hc, hx⟩ := ht
      have := h c hc
      simp [this] at hx
  rw [e, mangleLoop_filter]
  simp

/-- A run of separators gives a single underscore: no doubled underscore appears unless the name has underscores (template marking
aside). -/
theorem C19_no_doubled_underscore (name : Str) (h : '_' ∉ name) : ¬ c!"__" <:+: mangleTypeName name false := by
  have e : mangleTypeName name false = mangleLoop [] name := by simp [mangleTypeName]
  rw [e]
  exact mangleLoop_noDouble name [] (by decide) h

/-- A name without separators is unchanged. -/
theorem C19_plain_unchanged (name : Str) (mark : Bool) (h : ∀ c ∈ name, isMangleSep c = false) : mangleTypeName name mark = name := by
  have ht : mangleIsTemplate name = false := by
    rw [mangleIsTemplate, List.any_eq_false]
    intro c hc
    have := h c hc
    simp [isMangleSep] at this
    simp [this]
  simp [mangleTypeName, ht, mangleLoop_plain name [] h]

/-- Distinct types can get the same Python name: `A<B,C>` and `A<B<C>>`. -/
theorem C19_injective_false : ¬ ∀ a b : Str, mangleTypeName a = mangleTypeName b → a = b := by
  intro h
  have := h c!"A<B,C>" c!"A<B<C>>" (by decide)
  revert this
  decide

/-- The result need not be an identifier: `A<-1>` becomes `A_-1_t`. -/
theorem C19_identifier_false : ¬ ∀ name : Str, name ≠ [] → (∀ c, name.head? = some c → isAlpha c = true) → IsIdentifier (mangleTypeName name) := by
  intro h
  have h1 := h c!"A<-1>" (by decide) (by decide)
  have h2 := h1.2.1 '-' (by decide)
  revert h2
  decide

/-- It is an identifier when the name starts with a letter or underscore (or separator) and consists of identifier characters,
separators and, for marked templates, `*` and `&`. Missing: other characters, such as `-` in negative arguments. -/
theorem C19_identifier_partial (name : Str) (mark : Bool) (hne : name ≠ [])
    (hhead : ∀ c, name.head? = some c → isDigit c = false)
    (hchars : ∀ c ∈ name, IdentChar c = true ∨ isMangleSep c = true ∨
      (mark = true ∧ (∃ d ∈ name, d = '<' ∨ d = '>' ∨ d = ',') ∧ (c = '*' ∨ c = '&')) ) :
    IsIdentifier (mangleTypeName name mark) := by
  cases name with
  | nil => exact absurd rfl hne
  | cons x xs =>
    have hhd := mangleLoop_head_cons x xs
    by_cases hT : mark = true ∧ ∃ d ∈ x :: xs, d = '<' ∨ d = '>' ∨ d = ','
    · have ht : mangleIsTemplate (x :: xs) = true := by
        obtain ⟨_, c, hc, h⟩ := hT
        simp only [mangleIsTemplate, List.any_eq_true]
        exact ⟨c, hc, by rcases h with h | h | h <;> simp [h]⟩
      have e : mangleTypeName (x :: xs) mark =
          (mangleLoop [] (x :: xs)).flatMap (fun c => (if c = '*' then c!"_star_" else [c]).flatMap fun d => if d = '&' then c!"_ref_" else [d]) ++ ['t'] := by
        simp [mangleTypeName, ht, hT.1, replaceAll_single, List.flatMap_assoc]
      rw [e]
      refine ⟨by simp, ?_, ?_⟩
      · intro c hc
        simp only [List.mem_append, List.mem_flatMap, List.mem_singleton] at hc
        rcases hc with ⟨a, ha, b, hb, hc⟩ | hc
        · have hac : IdentChar a = true ∨ a = '*' ∨ a = '&' := by
            rcases mem_mangleLoop ha with h | h | h
            · simp at h
            · left; rw [h]; decide
            · rcases hchars a h.1 with h' | h' | h'
              · exact .inl h'
              · rw [h.2] at h'; cases h'
              · exact .inr h'.2.2
          split at hb
          · have : ∀ b ∈ c!"_star_", ∀ c ∈ (if b = '&' then c!"_ref_" else [b]), IdentChar c = true := by decide
            exact this b hb c hc
          · simp at hb; subst hb
            split at hc
            · have : ∀ c ∈ c!"_ref_", IdentChar c = true := by decide
              exact this c hc
            · simp at hc; subst hc
              rcases hac with h | h | h
              · exact h
              · contradiction
              · contradiction
        · rw [hc]; decide
      · intro c hc
        cases hl : mangleLoop [] (x :: xs) with
        | nil => rw [hl] at hhd; simp at hhd
        | cons y ys =>
          rw [hl] at hc hhd
          simp only [List.head?_cons, Option.some.injEq] at hhd
          have hy : isDigit y = false := by
            rw [hhd]; split
            · decide
            · exact hhead x (by simp)
          by_cases h1 : y = '*'
          · subst h1; simp at hc; subst hc; decide
          · by_cases h2 : y = '&'
            · subst h2; simp at hc; subst hc; decide
            · simp [h1, h2] at hc; subst hc
              simpa [isDigit] using hy
    · have e : mangleTypeName (x :: xs) mark = mangleLoop [] (x :: xs) := by
        unfold mangleTypeName
        simp only
        rw [if_neg]
        simp only [Bool.and_eq_true, not_and]
        intro ht hm
        apply hT
        refine ⟨hm, ?_⟩
        simp only [mangleIsTemplate, List.any_eq_true] at ht
        obtain ⟨c, hc, hx⟩ := ht
        exact ⟨c, hc, by simpa [or_assoc] using hx⟩
      rw [e]
      refine ⟨by intro h; rw [h] at hhd; simp at hhd, ?_, ?_⟩
      · intro c hc
        rcases mem_mangleLoop hc with h | h | h
        · simp at h
        · rw [h]; decide
        · rcases hchars c h.1 with h' | h' | h'
          · exact h'
          · rw [h.2] at h'; cases h'
          · exact absurd ⟨h'.1, h'.2.1⟩ hT
      · intro c hc
        rw [hhd] at hc
        simp only [Option.some.injEq] at hc
        subst hc
        split
        · decide
        · simpa [isDigit] using hhead x (by simp)

example : mangleTypeName c!"std::map<int *, A_b>" = c!"std_map_int__star__A_b_t" ∧
    IsIdentifier (mangleTypeName c!"std::map<int *, A_b>") := by
  refine ⟨by decide, C19_identifier_partial _ _ (by decide) (by decide) ?_⟩
  have : ∀ c ∈ c!"std::map<int *, A_b>", IdentChar c = true ∨ isMangleSep c = true ∨ (c = '*' ∨ c = '&') := by decide
  intro c hc
  rcases this c hc with h | h | h
  · exact .inl h
  · exact .inr (.inl h)
  · exact .inr (.inr ⟨rfl, ⟨'<', by decide, .inl rfl⟩, h⟩)

end Binder
