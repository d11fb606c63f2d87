import Verif.Spec.Class
import Verif.Spec.Strings

/-!
# Specification: virtual calls that may reach Python

What happens if C++ code calls a virtual function of an object of a callback structure, that is, of an object Python made of a class derived
from the bound class. `V` are the values of the arguments. Left out: results, exceptions, and how pybind11 converts values.
-/

namespace Binder.Spec

open Cxx

/-- What a function of a callback structure does if Python has no method for it: it calls `cls::name` with the arguments, or raises an
exception that names the function. -/
inductive Otherwise where
  | calls (cls name : Str) (args : List Str)
  | fails (cls name : Str)

/-- C++ text of it. -/
def Otherwise.text : Otherwise → Str
  | .calls cls name args => c!"return " ++ cls ++ c!"::" ++ name ++ c!"(" ++ listText args ++ c!");\n"
  | .fails cls name => "pybind11::pybind11_fail(\"Tried to call pure virtual function \\\"".toList ++ cls ++ c!"::" ++ name ++ c!"\\\"\");\n"

/-- What a virtual call comes to. An argument is `none` if the text names something that is not a parameter. -/
inductive Ran (V : Type) where
  /-- the Python method `name` of the object runs -/
  | python (name : Str) (args : List (Option V))
  /-- the C++ function `cls::name` runs -/
  | cxx (cls name : Str) (args : List (Option V))
  /-- the exception "Tried to call pure virtual function" is raised -/
  | pure (cls name : Str)
deriving DecidableEq

/-- What the body does: `params` are the names of the parameters, `vs` their values, and `python` says whether `get_overload` finds a method
with the name. It finds the method that a Python class of the object defines; it finds none if there is only the bound C++ method, or if
the call comes from that very method (that is how `super().f()` works). -/
def runs {V : Type} (d : Dispatch) (e : Otherwise) (params : List Str) (vs : List V) (python : Str → Bool) : Ran V :=
  let value := fun n : Str => (params.zip vs).lookup n
  if python d.name then .python d.name (d.args.map value)
  else match e with
    | .calls cls name args => .cxx cls name (args.map value)
    | .fails cls name => .pure cls name

/-- A member function that is no constructor, destructor or conversion has an identifier as its name, or, if it is an operator, the word
`operator` and the operator. -/
def ProperName (f : Func) : Prop :=
  if f.isOperator then ∃ s, f.name = c!"operator" ++ s ∧ (∃ c, s.head? = some c ∧ IdentChar c = false) ∧ ('(' ∉ s ∨ s = c!"()")
  else IsIdentifier f.name ∧ f.name ≠ c!"operator"

end Binder.Spec
