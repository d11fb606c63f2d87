import Verif.Spec.Strings

/-!
# Names of types for the shipped binders (C82)

Nothing in this file refers to the model of the program.
-/

namespace Binder.Spec

/-- The name of a type that is no template instance, pointer or reference, such as `int`, `unsigned int` or `n::A`: identifiers, `::` and
spaces; it starts with a character of an identifier and ends with a letter or a digit. -/
structure SimpleTypeName (s : Str) : Prop where
  chars : ∀ c ∈ s, IdentChar c = true ∨ c = ':' ∨ c = ' '
  starts : ∃ c, s.head? = some c ∧ IdentChar c = true
  ends : ∃ c, s.getLast? = some c ∧ IdentChar c = true ∧ c ≠ '_'

/-- A name without namespaces that consists of letters and digits. -/
structure Word (s : Str) : Prop where
  nonempty : s ≠ []
  chars : ∀ c ∈ s, IdentChar c = true ∧ c ≠ '_'

/-- The name of `std::less` for a key, the default comparator of `std::map`. -/
def lessOf (k : Str) : Str := c!"std::less<" ++ k ++ c!">"

/-- The names of the default allocator of a vector. -/
def allocatorOf (t : Str) : Str := c!"std::allocator<" ++ t ++ c!">"

/-- The name of the default allocator of a map; `gap` is what is printed between the closing brackets, a space before LLVM 12 or so. -/
def mapAllocatorOf (k v gap : Str) : Str := c!"std::allocator<std::pair<const " ++ k ++ c!", " ++ v ++ c!">" ++ gap ++ c!">"

end Binder.Spec
