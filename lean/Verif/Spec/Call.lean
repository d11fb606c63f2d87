import Verif.Spec.Function
import Verif.Spec.Class

/-!
# Specification: what a Python call of a bound function does

How pybind11 finds the function for a call (`cpp_function::dispatcher`), for the kinds of functions that the generated code defines: no
default values, no `*args`, no `**kwargs`. `V` are the values of Python. Left out: exceptions, return values.
-/

namespace Binder.Spec

open Cxx

/-- A Python call: arguments by position (for a method, the object comes first) and by keyword. -/
structure PyCall (V : Type) where
  pos : List V
  kw : List (Str × V)

/-- One function made by pybind11. `params` are its parameters, `names` the names given by `pybind11::arg`, in order, with the name `self`
for the object; there may be no names. -/
structure Overload (α : Type) where
  names : List Str
  params : List α

/-- Values for parameters by keyword: each is taken out of the keyword arguments. -/
def takeKeywords {V : Type} : List Str → List (Str × V) → Option (List V × List (Str × V))
  | [], kw => some ([], kw)
  | n :: ns, kw => match kw.lookup n with
    | none => none
    | some v => (takeKeywords ns (kw.filter fun x => x.1 ≠ n)).map fun r => (v :: r.1, r.2)

/-- The values for all parameters: too many arguments, missing arguments, arguments given twice and unknown keywords rule a function out. -/
def Overload.arguments {α V : Type} (o : Overload α) (c : PyCall V) : Option (List V) :=
  if o.params.length < c.pos.length then none
  else if c.pos.length < o.params.length ∧ o.names.length < o.params.length then none
  else if (o.names.take c.pos.length).any (fun n => (c.kw.lookup n).isSome) then none
  else match takeKeywords ((o.names.take o.params.length).drop c.pos.length) c.kw with
    | some (vs, []) => some (c.pos ++ vs)
    | _ => none

/-- A function can be called: it has values for all parameters, and they can be converted to the parameters' types. `can` says which
values have the type (`false`), or can be converted to it (`true`). -/
def Overload.tries {α V : Type} (can : Bool → α → V → Bool) (convert : Bool) (o : Overload α) (c : PyCall V) : Option (List V) :=
  match o.arguments c with
  | none => none
  | some vs => if (o.params.zip vs).all (fun x => can convert x.1 x.2) then some vs else none

/-- The function that is called, and its arguments. Of several functions with one name the first is called that takes the arguments as
they are, otherwise the first that takes them after conversion. -/
def dispatch {β α V : Type} (can : Bool → α → V → Bool) (os : List (β × Overload α)) (c : PyCall V) : Option (β × List V) :=
  let pass := fun convert => os.findSome? fun o => (o.2.tries can convert c).map fun vs => (o.1, vs)
  if os.length ≤ 1 then pass true
  else match pass false with
    | some r => some r
    | none => pass true

/-- The call, without the object, gives the values `vs` to the first parameters: the first ones by position, the others by keyword, in any
order. -/
def Gives {V : Type} (names : List Str) (c : PyCall V) (vs : List V) : Prop :=
  vs.length ≤ names.length ∧ c.pos <+: vs ∧ c.kw.Perm ((names.zip vs).drop c.pos.length)

/-- A C++ call. -/
structure CxxCall (V : Type) where
  object : Option V
  function : Str
  args : List V

/-- What the function given to `def` calls if it gets the values: the address of a function calls that function; a lambda calls what its
body says, with its parameters bound to the values. -/
inductive Does {V : Type} : Str → List V → CxxCall V → Prop where
  | pointer {p : Pointer} {vs} : p.cls = [] → p.types.length = vs.length → Does p.text vs ⟨none, p.target, vs⟩
  | memberPointer {p : Pointer} {o vs} : p.cls ≠ [] → p.types.length = vs.length → Does p.text (o :: vs) ⟨some o, p.target, vs⟩
  | lambda {l : Lambda} {vs ws} : l.params.length = vs.length →
      l.args.map (((l.params.map (·.2)).zip vs).lookup ·) = ws.map some → Does l.text vs ⟨none, l.callee, ws⟩
  | memberLambda {l : Lambda} {f vs o ws} : l.params.length = vs.length → l.callee = c!"o." ++ f →
      ((l.params.map (·.2)).zip vs).lookup c!"o" = some o →
      l.args.map (((l.params.map (·.2)).zip vs).lookup ·) = ws.map some → Does l.text vs ⟨some o, f, ws⟩

/-- Different parameters have different names, unless they have none. -/
def NamesDiffer (names : List Str) : Prop := names.Pairwise fun a b => a ≠ [] → a ≠ b

/-- Keywords are different, and no keyword is empty. -/
def PyCall.Sane {V : Type} (c : PyCall V) : Prop := (c.kw.map (·.1)).Nodup ∧ ∀ x ∈ c.kw, x.1 ≠ []

/-- A function that is bound: as a member of the class `parent`, if there is one; by a lambda, or, if possible, directly. -/
structure Binding where
  F : Func
  parent : Option Nat
  lam : Bool

end Binder.Spec
