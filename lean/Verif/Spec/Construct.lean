import Verif.Spec.CallRun

/-!
# Specification: objects made from Python

What the constructor statements of a Python class do when Python makes an object of the class, or of a class that a Python program derives
from it. A class made by pybind11 does not inherit `__init__`.
-/

namespace Binder.Spec

open Cxx

/-- What a constructor statement takes for an argument: a value for a parameter of a C++ constructor, or an object of a class, to copy it. -/
inductive Takes where
  | param (p : Param)
  | object (cls : Str)

/-- A constructor statement, with what it takes. -/
structure New where
  init : Init
  takes : List Takes

/-- The function that pybind11 makes of a constructor statement; the new object is not among its parameters. -/
def New.overload (y : New) : Overload Takes := ⟨y.init.keywords, y.takes⟩

/-- The text of a constructor statement. Besides the form of `Init.text` there is a short form without documentation. -/
def Init.Is (t : Str) (x : Init) : Prop :=
  t = x.text ∨ match x with
    | .direct types ks => ks = [] ∧ t = c!"\tcl.def(pybind11::init<" ++ listText types ++ c!">());\n"
    | .viaLambda params args targets ks => ks = none ∧
        t = c!"\tcl.def( pybind11::init( " ++ listText (targets.map (newText params args)) ++ c!" ) );\n"

/-- The text consists of the statements, in order, with comments and empty lines between them. -/
inductive Statements : List New → Str → Prop where
  | nil : Statements [] []
  | gap {g l t} : Gap g → Statements l t → Statements l (g ++ t)
  | cons {y l s t} : y.init.Is s → Statements l t → Statements (y :: l) (s ++ t)

/-- The C++ object that a constructor statement makes if it gets the values: its class, and the arguments of its constructor. `cls` is the
class to which the statement belongs, `callback` the callback structure named in the `class_` statement. `derived` says that the Python
object belongs to a class that a Python program derives from the Python class; then pybind11 needs an object of the callback structure, if there is
one. `init<...>` sees to that, and uses the callback structure also if the class is abstract; of two lambdas the second one is used; one
lambda that makes an object of the class itself raises an exception. -/
inductive Makes {V : Type} (cls : Str) (callback : Option Str) (abstract derived : Bool) : Init → List V → Str → List V → Prop where
  | itself {types ks vs} : types.length = vs.length → (callback = none ∨ abstract = false ∧ derived = false) →
      Makes cls callback abstract derived (.direct types ks) vs cls vs
  | callback {types ks vs n} : types.length = vs.length → callback = some n → (abstract = true ∨ derived = true) →
      Makes cls callback abstract derived (.direct types ks) vs n vs
  | lambda {params args n ks vs ws} : params.length = vs.length → args.map (((params.map (·.2)).zip vs).lookup ·) = ws.map some →
      (callback = none ∨ derived = false ∨ callback = some n) → Makes cls callback abstract derived (.viaLambda params args [n] ks) vs n ws
  | lambdas {params args n m ks vs ws} : params.length = vs.length → args.map (((params.map (·.2)).zip vs).lookup ·) = ws.map some →
      Makes cls callback abstract derived (.viaLambda params args [n, m] ks) vs (if derived then m else n) ws

/-- The class of the C++ object for a Python object: the callback structure, if there is one, for abstract classes and for Python objects of derived
classes, so that methods can be overridden in Python. -/
def objectClass (cls : Str) (callback : Option Str) (abstract derived : Bool) : Str :=
  match callback with
  | some n => if abstract || derived then n else cls
  | none => cls

/-- What the statements for a constructor take: the first arguments of the C++ constructor; nothing; or one object, of the class named in
the text. -/
def TakesFor (x : Item) (y : New) : Prop :=
  match x with
  | .ctor t => y.takes = (t.params.take y.init.arity).map .param
  | .copyCtor _ => ∃ n const, y.takes = [.object n] ∧ (const = [] ∨ const = c!" const") ∧
      (y.init = .direct [n ++ const ++ c!" &"] [] ∨ y.init = .viaLambda [(n ++ const ++ c!" &", c!"o")] [c!"o"] [n] none)
  | _ => y.takes = []

end Binder.Spec
