import Verif.Basic.Str

/-!
# Specification: the type of the result of a lambda

In `[]() -> struct A { return f(); }` compilers take `struct A {` for the beginning of a definition (the comment in the source calls it a bug of GCC). The
same type is written `A`, with `const` before it if it was there.
-/

namespace Binder.Spec

/-- The words with which a definition of a type begins. -/
def typeWords : List Str := [c!"enum ", c!"class ", c!"struct ", c!"union "]

/-- Before a brace, the text looks like the beginning of a definition. -/
def LooksLikeDefinition (text : Str) : Prop := ∃ w ∈ typeWords, w <+: text ∨ c!"const " ++ w <+: text

/-- `short` is the type `long`, without the word for the kind of type. -/
def SameType (long short : Str) : Prop :=
  ∃ cv ∈ [[], c!"const "], ∃ w ∈ [] :: typeWords, ∃ name, long = cv ++ w ++ name ∧ short = cv ++ name ∧ ¬ c!"const " <+: name ∧ ∀ u ∈ typeWords, ¬ u <+: name

end Binder.Spec
