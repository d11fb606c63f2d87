import Verif.Model.Memo

/-!
# Independent specifications for the cached functions and for normalised names
-/

namespace Binder.Spec

open Cxx

/-- What each function answers if it is computed afresh: `standard_name`, `simplify_std_class_name` and the two decisions `is_bindable`,
without any table. -/
def afresh (E : Env) : Call → Result
  | .standard s => .name (standardName E.simplify s)
  | .simplify s => .name (E.simplify s)
  | .cls i => .decision (classBindable E i)
  | .fn F => .decision (functionBindable E F)

/-- Does the answer to a call depend on the text of a name only? -/
def NameCall : Call → Prop
  | .standard _ => True
  | .simplify _ => True
  | .cls _ => False
  | .fn _ => False

/-- The spellings that normalisation rewrites wherever they occur. -/
def rewritten : List Str :=
  ["std::__1::".toList, "std::__cxx11::".toList,
   "std::basic_string<char>".toList,
   "std::basic_string<char, std::char_traits<char>, std::allocator<char> >".toList,
   "class std::basic_string<char, struct std::char_traits<char>, class std::allocator<char> >".toList,
   "std::basic_ostream<char>".toList, "std::basic_istream<char>".toList,
   "class std::string".toList, "class std::ostream".toList, "class std::istream".toList,
   "class std::__thread_id".toList, "std::__thread_id".toList,
   "nullptr_t".toList]

/-- None of the rewritten spellings occurs. -/
def Plain (s : Str) : Prop := ∀ p ∈ rewritten, ¬ p <:+: s

end Binder.Spec
