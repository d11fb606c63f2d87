import Verif.Spec.Lookup
import Verif.Spec.Function

/-!
# Specification: what expressions with operators do in Python

The rules are those of the Python language reference, "Data model", 3.3. Functions made by pybind11 with `def` raise `TypeError` for operands
they do not take; they do not return `NotImplemented`, so Python asks no further.
-/

namespace Binder.Spec

open Cxx

/-- Symbols of unary operators, and the methods Python calls for them. -/
def unaryMethods : List (Str × Str) := [(c!"+", c!"__pos__"), (c!"-", c!"__neg__"), (c!"~", c!"__invert__")]

/-- Symbols of binary operators, the method Python calls on the left operand, and the reflected one on the right operand. -/
def binaryMethods : List (Str × Str × Str) :=
  [(c!"+", c!"__add__", c!"__radd__"), (c!"-", c!"__sub__", c!"__rsub__"), (c!"*", c!"__mul__", c!"__rmul__"),
   (c!"/", c!"__truediv__", c!"__rtruediv__"), (c!"%", c!"__mod__", c!"__rmod__"), (c!"|", c!"__or__", c!"__ror__"),
   (c!"&", c!"__and__", c!"__rand__"), (c!"^", c!"__xor__", c!"__rxor__"), (c!"<<", c!"__lshift__", c!"__rlshift__"),
   (c!">>", c!"__rshift__", c!"__rrshift__")]

/-- Symbols of assignments with an operator, the method Python calls, and the symbol whose methods are used if there is none. -/
def augmentedMethods : List (Str × Str × Str) :=
  [(c!"+=", c!"__iadd__", c!"+"), (c!"-=", c!"__isub__", c!"-"), (c!"*=", c!"__imul__", c!"*"), (c!"/=", c!"__itruediv__", c!"/"),
   (c!"%=", c!"__imod__", c!"%"), (c!"|=", c!"__ior__", c!"|"), (c!"&=", c!"__iand__", c!"&"), (c!"^=", c!"__ixor__", c!"^"),
   (c!"<<=", c!"__ilshift__", c!"<<"), (c!">>=", c!"__irshift__", c!">>")]

/-- What Python does for an expression. -/
inductive Evaluation where
  /-- it calls the function `name` of the class `cls` for the left operand, with the right one, if there is one, as argument -/
  | calls (cls name : Str)
  /-- it calls the function `name` of the class `cls` for the right operand, with the left one as argument -/
  | callsRight (cls name : Str)
  /-- it does one of these, and takes the opposite of the result -/
  | opposite (e : Evaluation)
  /-- it asks whether the operands are the same object -/
  | sameObject
  /-- it raises `TypeError` -/
  | typeError
deriving DecidableEq, Repr

/-- `-x`, and also `x[…]` and `x(…)`: the method is looked for in the class of `x` and its bases. -/
def Py.evalUnary (p : Py) (name x : Str) : Evaluation :=
  match p.owner x name with
  | some c => .calls c name
  | none => .typeError

/-- `x + y` for an `x` of class `x` and a `y` of class `y`. If `y`'s class is derived from that of `x` and has a reflected method of its own, this is
called; otherwise the method of `x`; if there is none, the reflected method of `y`. -/
def Py.evalBinary (p : Py) (name reflected x y : Str) : Evaluation :=
  match (if y ≠ x ∧ x ∈ p.order y ∧ p.owner y reflected ≠ p.owner x reflected then p.owner y reflected else none) with
  | some c => .callsRight c reflected
  | none => match p.owner x name with
    | some c => .calls c name
    | none => match (if y = x then none else p.owner y reflected) with
      | some c => .callsRight c reflected
      | none => .typeError

/-- `x += y`. -/
def Py.evalAugmented (p : Py) (name binary reflected x y : Str) : Evaluation :=
  match p.owner x name with
  | some c => .calls c name
  | none => p.evalBinary binary reflected x y

/-- What the methods of one operand of `==`, `!=` say; `none`: nothing (the methods of `object` for two different objects). -/
def Py.compares (p : Py) (negated : Bool) (x : Str) (calls : Str → Str → Evaluation) : Option Evaluation :=
  match (if negated then p.owner x c!"__ne__" else none) with
  | some c => some (calls c c!"__ne__")
  | none => match p.owner x c!"__eq__" with
    | some c => some (if negated then .opposite (calls c c!"__eq__") else calls c c!"__eq__")
    | none => none

/-- `x == y` and `x != y`. If `y`'s class is derived from that of `x`, its method is asked first, otherwise that of `x`. -/
def Py.evalEqual (p : Py) (negated : Bool) (x y : Str) : Evaluation :=
  let left := p.compares negated x .calls
  let right := p.compares negated y .callsRight
  let found := if y ≠ x ∧ x ∈ p.order y then right.or left else left.or right
  found.getD (if negated then .opposite .sameObject else .sameObject)

/-- The names that Python gives a meaning to in expressions. -/
def methodNames : List Str :=
  unaryMethods.map (·.2) ++ binaryMethods.map (·.2.1) ++ augmentedMethods.map (·.2.1) ++ [c!"__eq__", c!"__ne__", c!"__getitem__", c!"__call__"]

/-- The program uses names as C++ wants it: names like `__add__` and `__radd__`, which are reserved, are not given to anything by the program;
member operators have the number of parameters that C++ allows, and are not static; anonymous classes have no methods. Left out: the unary `operator&`, see C40. -/
structure OperatorsPlain (U : TransUnit) : Prop where
  legal : ∀ i f parent lam, Item.method f parent lam ∈ classItems U.E i → f.isOperator = true →
    legalArity f.name f.params.length ∧ ¬ (f.name = c!"operator&" ∧ f.params.length = 0) ∧ f.isStatic = false
  methods : ∀ i f parent lam, Item.method f parent lam ∈ classItems U.E i → f.isOperator = false → boundName U.E f ∉ methodNames
  others : ∀ op s n, Made U op → ((s, n), .object) ∈ op.binds → n ∉ methodNames
  reflected : ∀ op s n kind, Made U op → ((s, n), kind) ∈ op.binds → n ∉ binaryMethods.map (·.2.2)
  named : ∀ i f parent lam, Item.method f parent lam ∈ classItems U.E i → (U.E.cls i).isAnonymous = false

end Binder.Spec
