import Verif.Spec.Simplify

/-!
# Independent specification of the spellings of one type

Two texts that name the same type by the rules of C++ and by how the standard libraries are written, none of which mentions the program.
-/

namespace Binder.Spec

/-- Names that the C++ standard declares as other names of a type: [string.classes], [iostream.forward.overview]. The arguments that
follow the first are default arguments, so that they may be left out. `std::thread::id` is declared by libc++ as a name of a class
`std::__thread_id`. -/
def standardTypedefs : List (Str × Str) :=
  [("std::string".toList, "std::basic_string<char>".toList),
   ("std::string".toList, "std::basic_string<char, std::char_traits<char>, std::allocator<char> >".toList),
   ("std::ostream".toList, "std::basic_ostream<char>".toList),
   ("std::istream".toList, "std::basic_istream<char>".toList),
   ("std::thread::id".toList, "std::__thread_id".toList)]

/-- Two ways to write a part of a name that mean the same. -/
inductive Respelled : Str → Str → Prop
  /-- Names of an inline namespace are names of the namespace around it; `__1` is that of libc++, `__cxx11` that of libstdc++. -/
  | inline (ns : Str) : ns ∈ [c!"__1", c!"__cxx11"] → Respelled (c!"std::" ++ ns ++ c!"::") c!"std::"
  /-- The word for the kind of a class may be left out before its name. -/
  | kind (k : Str) : k ∈ [c!"class ", c!"struct "] → Respelled (k ++ c!"std::") c!"std::"
  | typedef (name full : Str) : (name, full) ∈ standardTypedefs → Respelled full name
  /-- `_Bool` is how clang prints `bool`. -/
  | bool : Respelled c!"_Bool" c!"bool"
  | defaults {full short : Str} : DefaultArguments full short → Respelled full short
  | stream {full short : Str} : StreamName full short → Respelled (c!"std::" ++ full) (c!"std::" ++ short)

/-- The second text comes from the first by writing parts of it in another way, at any number of places. -/
inductive Renamed : Str → Str → Prop
  | same (s : Str) : Renamed s s
  | step {full short : Str} (before after : Str) {t : Str} : Respelled full short → Renamed (before ++ short ++ after) t →
      Renamed (before ++ full ++ after) t

/-- The characters of identifiers. -/
def letter (c : Char) : Bool := c.isAlphanum || c == '_'

/-- A name does not go on at the end of this text. -/
def NoLetterAtEnd (s : Str) : Prop := ∀ c, s.getLast? = some c → letter c = false

/-- A name does not go on at the beginning of this text. -/
def NoLetterAtStart (s : Str) : Prop := ∀ c, s.head? = some c → letter c = false

/-- The text stands by itself: the names at its ends do not go on before and after it. -/
def Whole (before full after : Str) : Prop :=
  ((∃ c, full.head? = some c ∧ letter c = true) → NoLetterAtEnd before) ∧
  ((∃ c, full.getLast? = some c ∧ letter c = true) → NoLetterAtStart after)

/-- As `Renamed`, but only whole names are written in another way. -/
inductive RenamedWhole : Str → Str → Prop
  | same (s : Str) : RenamedWhole s s
  | step {full short : Str} (before after : Str) {t : Str} : Respelled full short → Whole before full after →
      RenamedWhole (before ++ short ++ after) t → RenamedWhole (before ++ full ++ after) t

/-- Names as clang prints them: `std` and the word `class` are not the ends of longer words, `__thread_id` is not the beginning of one, and
no letter follows on `>`. -/
structure Printed (s : Str) : Prop where
  std : ∀ a b, s = a ++ c!"std::" ++ b → NoLetterAtEnd a
  kind : ∀ a b, s = a ++ c!"class " ++ b → NoLetterAtEnd a
  close : ∀ a b, s = a ++ c!">" ++ b → NoLetterAtStart b
  thread : ∀ a b, s = a ++ c!"__thread_id" ++ b → NoLetterAtStart b

end Binder.Spec
