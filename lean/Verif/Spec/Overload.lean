import Verif.Spec.Function

/-!
# Specification: which function a C++ call in the generated code reaches

Overload resolution ([over.match]) for calls whose arguments are variables. Conversions between different types are not modelled: any
relation may say which exist, but all of them are worse than no conversion. Left out: function
templates and access.
-/

namespace Binder.Spec

open Cxx

/-- A type without typedefs, and without a reference and `const` at its outside. -/
def bare (t : Ty) : Ty :=
  match t.canon with
  | .lref u => u.unqual
  | .rref u => u.unqual
  | u => u.unqual

/-- `t` is `T &`, where `T` is not `const`. -/
def NonConstRef (t : Ty) : Prop := ∃ u, t.canon = .lref u ∧ u.isConst = false

/-- `t` is `T const &`. -/
def ConstRef (t : Ty) : Prop := ∃ u, t.canon = .lref u ∧ u.isConst = true

/-- `t` is `T &&`. -/
def RvalueRef (t : Ty) : Prop := ∃ u, t.canon = .rref u

/-- `t` is a pointer that is not itself `const`. -/
def NonConstPointer (t : Ty) : Prop := ∃ u, t.canon = .ptr u

/-- An argument: a variable of type `ty`, or of type `ty const`. -/
structure Arg where
  ty : Ty
  isConst : Bool

/-- The expression that names a variable or parameter declared with type `t`. -/
def variableOf (t : Ty) : Arg :=
  match t.canon with
  | .lref u => ⟨u.unqual, u.isConst⟩
  | .rref u => ⟨u.unqual, u.isConst⟩
  | u => ⟨u.unqual, u.isConst⟩

/-- A call: for a member access `o.f(...)`, whether `o` is `const`; and the arguments. -/
structure Call where
  object : Option Bool
  args : List Arg

/-- No conversion is needed to pass an argument to a parameter of type `t`. A `const` variable does not fit `T &`, no variable fits
`T &&`. -/
def FitsParam (a : Arg) (t : Ty) : Prop :=
  bare t = a.ty ∧ ¬ RvalueRef t ∧ (NonConstRef t → a.isConst = false)

/-- Parameter `p` is better for an argument than parameter `q` of another function (`none`: it falls to `...`): it fits, and the other
needs a conversion; or both are references that fit, and only the other adds `const`. -/
def BetterParam (a : Arg) (p q : Option Ty) : Prop :=
  ∃ t, p = some t ∧ FitsParam a t ∧ ∀ u, q = some u → ¬ FitsParam a u ∨ (NonConstRef t ∧ ConstRef u)

/-- A function can be called with `k` arguments: all parameters that get none have default arguments. -/
def TakesNumber (G : Func) (k : Nat) : Prop := (∀ p ∈ G.params.drop k, p.hasDefault = true) ∧ (k ≤ G.params.length ∨ G.isVariadic = true)

/-- The type of parameter number `i`. -/
def paramTy (G : Func) (i : Nat) : Option Ty := (G.params[i]?).map (·.ty)

/-- A function is viable for a call. `conv` says which arguments can be converted to which types. -/
structure Viable (conv : Arg → Ty → Prop) (c : Call) (G : Func) : Prop where
  number : TakesNumber G c.args.length
  /-- A member function that is not `const` cannot be called on a `const` object. -/
  object : c.object = some true → G.isInstance = true → G.isConst = true
  args : ∀ (i : Nat) (a : Arg) (t : Ty), c.args[i]? = some a → paramTy G i = some t → FitsParam a t ∨ conv a t

/-- For an object that is not `const`, a member function that is not `const` is better than one that is. -/
def BetterObject (c : Call) (F G : Func) : Prop :=
  c.object = some false ∧ F.isInstance = true ∧ G.isInstance = true ∧ F.isConst = false ∧ G.isConst = true

/-- `F` is better than `G` for a call: better for one argument, and for none worse. -/
structure Better (c : Call) (F G : Func) : Prop where
  never : (∀ (i : Nat) (a : Arg), c.args[i]? = some a → ¬ BetterParam a (paramTy G i) (paramTy F i)) ∧ ¬ BetterObject c G F
  once : (∃ (i : Nat) (a : Arg), c.args[i]? = some a ∧ BetterParam a (paramTy F i) (paramTy G i)) ∨ BetterObject c F G

/-- The call reaches `F` among the functions that have the name: all others are not viable, or worse. Otherwise it reaches another one, or
is ambiguous and does not compile. -/
structure Selects (conv : Arg → Ty → Prop) (c : Call) (scope : List Func) (F : Func) : Prop where
  found : F ∈ scope
  viable : Viable conv c F
  best : ∀ G ∈ scope, G ≠ F → Viable conv c G → Better c F G

/-- The arguments can be passed: a class that is passed by value is copied. `copyable` says which classes have a copy constructor. -/
def Passes (copyable : Nat → Prop) (c : Call) (F : Func) : Prop :=
  ∀ (i : Nat) (t : Ty) (r : Nat), i < c.args.length → paramTy F i = some t → t.canon.unqual = .record r → copyable r

/-- The type of a parameter declared by the text of a type, not a function, and one of the given suffixes. -/
def declared (t : Ty) (suffix : Str) : Option Ty :=
  match t.canon.unqual with
  | .fn _ _ => none
  | _ =>
    if suffix = c!" const & " then some (.lref (.const t))
    else if suffix = c!" & " then some (.lref t)
    else if suffix = c!" " then some t
    else none

/-- The first `k` parameters of `F` tell a call of `F` with variables of their types apart from a call of `G`: `G` does not take `k`
arguments; or one function is `const` and the other is not; or a parameter has another type, apart from references and `const`, or is
less suitable as a reference. -/
def TellsApart (F G : Func) (k : Nat) : Prop :=
  ¬ TakesNumber G k ∨ (F.isInstance = true ∧ G.isInstance = true ∧ F.isConst ≠ G.isConst) ∨
  ∃ i p, i < k ∧ paramTy F i = some p ∧ ∀ q, paramTy G i = some q →
    bare q ≠ bare p ∨ RvalueRef q ∨ (NonConstRef q ∧ ¬ NonConstRef p ∧ ¬ NonConstPointer p) ∨ (NonConstRef p ∧ ConstRef q)

/-- As `TellsApart`, for variables that are declared with exactly the types of the parameters. -/
def TellsApartPlain (F G : Func) (k : Nat) : Prop :=
  ¬ TakesNumber G k ∨ (F.isInstance = true ∧ G.isInstance = true ∧ F.isConst ≠ G.isConst) ∨
  ∃ i p, i < k ∧ paramTy F i = some p ∧ ∀ q, paramTy G i = some q →
    bare q ≠ bare p ∨ RvalueRef q ∨ (NonConstRef q ∧ (ConstRef p ∨ p.canon.isConst = true)) ∨ (NonConstRef p ∧ ConstRef q)

end Binder.Spec
