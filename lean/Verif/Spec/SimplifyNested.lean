import Verif.Basic.Str

/-!
# Independent specification of containers nested in each other
-/

namespace Binder.Spec

/-- A sequence container of sequence containers of the same kind, and so on, with all default arguments: every level of nesting has its own
blanks. `nestedFull c T [_, _]` is `std::c<std::c<T, std::allocator<T> >, std::allocator<std::c<T, std::allocator<T> > > >`. -/
def nestedFull (c T : Str) : List (Str × Str × Str) → Str
  | [] => T
  | (b1, b2, b3) :: l => c!"std::" ++ c ++ c!"<" ++ nestedFull c T l ++ c!"," ++ b1 ++ c!"std::allocator<" ++ nestedFull c T l ++ b2 ++ c!">" ++ b3 ++ c!">"

/-- The same with no default arguments: `std::c<std::c<T>>` for two levels. -/
def nestedShort (c T : Str) : Nat → Str
  | 0 => T
  | n + 1 => c!"std::" ++ c ++ c!"<" ++ nestedShort c T n ++ c!">"

end Binder.Spec
