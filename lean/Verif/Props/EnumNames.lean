import Verif.Spec.EnumNames
import Verif.Props.Function

/-!
# C112: the names of enumerators with old versions of clang
-/

namespace Binder

open Cxx Spec EnumNames

namespace EnumNames

theorem leads_blocks {cs : List Str} {ss bs : List Around} (hb : ∀ c ∈ bs, c = .block) (h : LeadsInto cs ss) : LeadsInto cs (bs ++ ss) := by
  induction bs with
  | nil => exact h
  | cons b bs ih =>
    rw [hb b List.mem_cons_self]
    exact .block (ih (fun c hc => hb c (List.mem_cons_of_mem _ hc)))

theorem joined_cons (n : Str) (ns : List Str) (m : Str) : joined (n :: (ns ++ [m])) = n ++ c!"::" ++ joined (ns ++ [m]) := by
  cases ns <;> rfl

theorem leads_plain (name : Str) (ss : List Around) (h : ∀ c ∈ ss, PlainlyNamed c) :
    ∃ cs, LeadsInto cs ss ∧ ss.flatMap contextText ++ name = joined (cs ++ [name]) := by
  induction ss with
  | nil => exact ⟨[], .here, rfl⟩
  | cons s ss ih =>
    obtain ⟨cs, hl, ht⟩ := ih (fun c hc => h c (List.mem_cons_of_mem _ hc))
    have hs := h s List.mem_cons_self
    cases s with
    | «namespace» n => exact ⟨n :: cs, .namespace hs hl, by simp [contextText, joined_cons, ← ht]⟩
    | cls n args =>
      obtain rfl : args = [] := hs
      exact ⟨(n ++ []) :: cs, .cls hl, by simp [contextText, joined_cons, ← ht]⟩
    | enumeration n b =>
      cases b with
      | true => exact ⟨n :: cs, .enumeration hl, by simp [contextText, joined_cons, ← ht]⟩
      | false => exact ⟨cs, .unscoped hl, by simpa [contextText] using ht⟩
    | block => exact hs.elim

theorem takeWhile_plain {inner outer : List Around} (hi : ∀ c ∈ inner, PlainlyNamed c) (ho : ∀ c ∈ outer, c = .block) :
    (inner ++ outer).takeWhile named = inner := by
  induction inner with
  | nil =>
    cases outer with
    | nil => rfl
    | cons o os => rw [ho o List.mem_cons_self]; rfl
  | cons i is ih =>
    have hn : named i = true := by
      have := hi i List.mem_cons_self
      cases i <;> first | rfl | exact this.elim
    simp [hn, ih (fun c hc => hi c (List.mem_cons_of_mem _ hc))]

end EnumNames

/-- C112, partial. With LLVM 5 and earlier, the name written for an enumerator denotes it, if the contexts around it are named and no explicit
specialisations, but for `extern "C"` around all of them. Missing: the other contexts, for which the name written may not
denote the enumerator, see `C112_block_false`, `C112_anonymous_false` and `C112_specialisation_false`. -/
theorem C112_old_names_partial (inner outer : List Around) (name : Str) (hi : ∀ c ∈ inner, PlainlyNamed c)
    (ho : ∀ c ∈ outer, c = .block) : NamesDeclared (oldQualifiedName (inner ++ outer) name) (inner ++ outer) name := by
  obtain ⟨cs, hl, ht⟩ := leads_plain name inner.reverse (by simpa using hi)
  refine ⟨cs, ?_, .inl ?_⟩
  · rw [List.reverse_append]
    exact leads_blocks (by simpa using ho) hl
  · rw [oldQualifiedName, takeWhile_plain hi ho, ht]

example : NamesDeclared c!"n::A::Color::red" [.enumeration c!"Color" true, .cls c!"A" [], .namespace c!"n", .block] c!"red" :=
  C112_old_names_partial [.enumeration c!"Color" true, .cls c!"A" [], .namespace c!"n"] [.block] c!"red"
    (by simp [PlainlyNamed]) (by simp)

example : NamesDeclared c!"n::red" [.enumeration c!"Color" false, .namespace c!"n"] c!"red" :=
  C112_old_names_partial [.enumeration c!"Color" false, .namespace c!"n"] [] c!"red" (by simp [PlainlyNamed]) (by simp)

/-- C112, partial. So the code that binds an enumeration with LLVM 5 and earlier has, for each enumerator, a value of that name which denotes
the enumerator. Missing: as in `C112_old_names_partial`. -/
theorem C112_values_partial (E : Env) (module : Str) (e : EnumD) (inner outer : List Around) (hi : ∀ c ∈ inner, PlainlyNamed c)
    (ho : ∀ c ∈ outer, c = .block) (he : ∀ v ∈ e.enumerators, v.2 = oldQualifiedName (inner ++ outer) v.1) :
    ∀ v ∈ e.enumerators, ∃ text, NamesDeclared text (inner ++ outer) v.1 ∧
      c!".value(\"" ++ v.1 ++ c!"\", " ++ text ++ c!")" <:+: bindEnumText E module e := by
  intro v hv
  refine ⟨v.2, by rw [he v hv]; exact C112_old_names_partial inner outer v.1 hi ho, ?_⟩
  obtain ⟨options, h, _⟩ := C53_values E module e
  rw [h]
  obtain ⟨a, b, hab⟩ := List.append_of_mem hv
  have hi : c!".value(\"" ++ v.1 ++ c!"\", " ++ v.2 ++ c!")" <:+: enumValues e.enumerators :=
    ⟨enumValues a ++ c!"\n\t\t", enumValues b, by rw [hab]; simp [enumValues]⟩
  generalize enumValues e.enumerators = values at hi
  exact hi.trans (((List.suffix_append _ _).isInfix.trans (List.prefix_append _ _).isInfix).trans (List.prefix_append _ _).isInfix)

example : ∃ text, NamesDeclared text [.enumeration c!"Color" true, .namespace c!"n"] c!"red" ∧
    c!".value(\"red\", " ++ text ++ c!")" <:+:
      bindEnumText exampleEnv c!"M(\"n\")" { exampleEnum with enumerators := [(c!"red", c!"n::Color::red")] } :=
  C112_values_partial exampleEnv c!"M(\"n\")" { exampleEnum with enumerators := [(c!"red", c!"n::Color::red")] }
    [.enumeration c!"Color" true, .namespace c!"n"] [] (by simp [PlainlyNamed]) (by simp)
    (by intro v hv; obtain rfl := List.mem_singleton.mp hv; decide) (c!"red", c!"n::Color::red") (by simp)

/-- C112 fails for `namespace n { extern "C" { enum Color { red }; } }`: the name written is `red`, without `n::`. -/
theorem C112_block_false : ¬ ∀ (contexts : List Around) (name : Str), NamesDeclared (oldQualifiedName contexts name) contexts name := by
  intro h
  obtain ⟨cs, hl, ht⟩ := h [.enumeration c!"Color" false, .block, .namespace c!"n"] c!"red"
  have : oldQualifiedName [.enumeration c!"Color" false, .block, .namespace c!"n"] c!"red" = c!"red" := by decide
  rw [this] at ht
  cases hl with
  | «namespace» _ hl =>
    cases hl with
    | block hl =>
      cases hl with
      | enumeration hl => cases hl; revert ht; decide
      | unscoped hl => cases hl; revert ht; decide

/-- C112 fails for an anonymous namespace in a namespace: the name written is `n::::red`. -/
theorem C112_anonymous_false :
    oldQualifiedName [.enumeration c!"Color" false, .namespace [], .namespace c!"n"] c!"red" = c!"n::::red" ∧
    ¬ NamesDeclared c!"n::::red" [.enumeration c!"Color" false, .namespace [], .namespace c!"n"] c!"red" := by
  refine ⟨by decide, ?_⟩
  rintro ⟨cs, hl, ht⟩
  cases hl with
  | «namespace» _ hl =>
    cases hl with
    | «namespace» hn _ => exact hn rfl
    | anonymous hl =>
      cases hl with
      | enumeration hl => cases hl; revert ht; decide
      | unscoped hl => cases hl; revert ht; decide

/-- C112 fails for `template<> struct A<char> { enum Color { red }; };`: the name written is `A::red`. -/
theorem C112_specialisation_false :
    oldQualifiedName [.enumeration c!"Color" false, .cls c!"A" c!"<char>"] c!"red" = c!"A::red" ∧
    ¬ NamesDeclared c!"A::red" [.enumeration c!"Color" false, .cls c!"A" c!"<char>"] c!"red" := by
  refine ⟨by decide, ?_⟩
  rintro ⟨cs, hl, ht⟩
  cases hl with
  | cls hl =>
    cases hl with
    | enumeration hl => cases hl; revert ht; decide
    | unscoped hl => cases hl; revert ht; decide

end Binder
