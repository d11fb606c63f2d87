import Verif.Basic.Str

/-!
# Independent specification of element types with template arguments
-/

namespace Binder.Spec

/-- The brackets `<` and `>` match. -/
def Bracketed (s : Str) : Prop := s.count '<' = s.count '>' ∧ ∀ p, p <+: s → p.count '>' ≤ p.count '<'

/-- The name of a type that may have template arguments, without any of the default arguments of containers and without blanks at its ends: newer
compilers write types like this, for example `std::map<int, std::vector<A>>` or `std::pair<int, B<char>>`. -/
structure ElementName (s : Str) : Prop where
  brackets : Bracketed s
  allocator : ¬ c!"std::allocator<" <:+: s
  less : ¬ c!"std::less<" <:+: s
  hash : ¬ c!"std::hash<" <:+: s
  equalTo : ¬ c!"std::equal_to<" <:+: s
  head : s.head? ≠ some ' '
  last : s.getLast? ≠ some ' '

end Binder.Spec
