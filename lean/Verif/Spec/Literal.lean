import Verif.Basic.Str

/-!
# Specification: string literals next to each other

C++ reads string literals that follow each other as one. A letter or an underscore directly after a literal makes it a user-defined literal,
which is something else; the reader refuses it.
-/

namespace Binder.Spec

/-- Nothing follows a literal that would become a part of it. -/
def endsLiteral : Str → Bool
  | [] => true
  | c :: _ => !(c.isAlpha || c == '_')

/-- Read the string literals at the beginning of a text: their value and what follows them. `inside` tells that the text begins within a
literal. The escapes are those of `readLiteral`. -/
def readStrings : Bool → Str → Option (Str × Str)
  | true, [] => none
  | true, '"' :: s => readStrings false s
  | true, '\\' :: '\\' :: s => (readStrings true s).map fun x => ('\\' :: x.1, x.2)
  | true, '\\' :: '"' :: s => (readStrings true s).map fun x => ('"' :: x.1, x.2)
  | true, '\\' :: 'n' :: s => (readStrings true s).map fun x => ('\n' :: x.1, x.2)
  | true, '\\' :: _ => none
  | true, '\n' :: _ => none
  | true, c :: s => (readStrings true s).map fun x => (c :: x.1, x.2)
  | false, '"' :: s => readStrings true s
  | false, s => if endsLiteral s then some ([], s) else none

end Binder.Spec
