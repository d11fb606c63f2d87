import Verif.Spec.Class

/-!
# Specification: custom trampolines
-/

namespace Binder.Spec

/-- A call of a function template that the user has written to take the place of the body of a virtual function. It is told the class that
declares the function and the type of the object, and is given the object, the name the class of the object is registered under in
Python, the name of the function, and the arguments. See `T81.custom_trampoline_with_args.include`. -/
structure CustomCall where
  function : Str
  cls : Str
  object : Str
  registered : Str
  method : Str
  args : List Str

/-- C++ text of a body that returns what this call returns. -/
def CustomCall.text (c : CustomCall) : Str :=
  c!"\n\t\treturn " ++ c.function ++ c!"<" ++ c.cls ++ c!"," ++ c.object ++ c!">(" ++
  listText ([c!"this", c!"\"" ++ c.registered ++ c!"\"", c!"\"" ++ c.method ++ c!"\""] ++ c.args) ++ c!");\n"

/-- The qualified name is the name in the namespace or class `scope`, or at global scope. -/
def NameIn (scope name qualified : Str) : Prop :=
  (scope = [] ∧ qualified = name) ∨ (scope ≠ [] ∧ qualified = scope ++ c!"::" ++ name)

end Binder.Spec
