import Verif.Basic.Str

/-!
# Model of `getQualifiedNameAsStringLLVM5Fix`, `source/enum.cpp`

With LLVM 5 and earlier, `bind_enum` does not take the names of the enumerators from clang but from this function (enum.cpp:133-138).
-/

namespace Binder

/-- A `DeclContext` a declaration can be in. The name of an anonymous namespace is empty. `args` is the template argument list of a
specialisation, as it is written in C++; it is empty for other classes. `block` is `extern "C" { ... }`, a `LinkageSpecDecl`, which is no
`NamedDecl`. Functions are left out: enumerations in functions are not visited. -/
inductive Around where
  | «namespace» (name : Str)
  | cls (name args : Str)
  | enumeration (name : Str) (isScoped : Bool)
  | block
deriving DecidableEq

namespace EnumNames

/-- `isa<NamedDecl>(Ctx)`, enum.cpp:94. -/
def named : Around → Bool
  | .block => false
  | _ => true

/-- What one context adds to the name, enum.cpp:98-109. `OS << *D` writes the plain name of the declaration, without template arguments. -/
def contextText : Around → Str
  | .namespace n => n ++ c!"::"
  | .cls n _ => n ++ c!"::"
  | .enumeration n isScoped => if isScoped then n ++ c!"::" else []
  | .block => []

/-- `getQualifiedNameAsStringLLVM5Fix`, enum.cpp:88-113, for a declaration with a name. `contexts` are the contexts around the declaration,
the innermost one first, without the translation unit. -/
def oldQualifiedName (contexts : List Around) (name : Str) : Str :=
  ((contexts.takeWhile named).reverse.flatMap contextText) ++ name

end EnumNames

end Binder
