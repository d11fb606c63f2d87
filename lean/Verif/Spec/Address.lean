import Verif.Spec.Types

/-!
# Specification: which function a cast address stands for

`(R (C::*)(T0, T1) const) &C::f` stands for the function of that name whose type is the type in the cast ([over.over]). Left out:
`noexcept`, which such a cast may drop, and function templates without template arguments.
-/

namespace Binder.Spec

open Cxx

/-- The qualifiers `&` and `&&` of a member function. -/
inductive RefQual where
  | none | lvalue | rvalue
deriving DecidableEq

/-- Qualifiers of a member function other than `const`. -/
structure Quals where
  isVolatile : Bool
  ref : RefQual
deriving DecidableEq

/-- No qualifiers. -/
def Quals.plain : Quals := ⟨false, .none⟩

/-- The type of a function or member function. Types are without typedefs; `cls` is the class of a member function that is not static. -/
structure FunctionType where
  cls : Option Nat
  ret : Ty
  params : List Ty
  isVariadic : Bool
  isConst : Bool
  quals : Quals

/-- The type of a parameter in the type of its function ([dcl.fct]): arrays and functions are pointers, `const` does not count. -/
def adjusted (t : Ty) : Ty :=
  match t.canon.unqual with
  | .arr u => .ptr u
  | .fn r ps => .ptr (.fn r ps)
  | u => u

/-- The class of a member function that is not static. -/
def ownClass (F : Func) : Option Nat := F.method.bind fun m => if m.isStatic then none else some m.parent

/-- The type of a function with the given qualifiers. -/
def typeOf (F : Func) (q : Quals) : FunctionType :=
  { cls := ownClass F, ret := F.ret.canon, params := F.params.map fun p => adjusted p.ty, isVariadic := F.isVariadic,
    isConst := F.isConst && (ownClass F).isSome, quals := if (ownClass F).isSome then q else .plain }

/-- The functions `F` and `G` can be in one class or namespace under one name ([over.load]): their parameters differ, or both are member
functions that are not static, and their qualifiers differ. `quals` are the qualifiers of functions other than `const`. -/
def CanOverload (quals : Func → Quals) (F G : Func) : Prop :=
  F.params.map (fun p => adjusted p.ty) ≠ G.params.map (fun p => adjusted p.ty) ∨ F.isVariadic ≠ G.isVariadic ∨
    ((ownClass F).isSome = true ∧ (ownClass G).isSome = true ∧ (F.isConst ≠ G.isConst ∨ quals F ≠ quals G))

/-- An address cast to type `T` stands for `F` among the functions that have the name: it is the only one of this type. If there is none,
the code does not compile, or, if there is just one function of the name, its address is reinterpreted as another type. -/
structure StandsFor (quals : Func → Quals) (scope : List Func) (T : FunctionType) (F : Func) : Prop where
  found : F ∈ scope
  type : typeOf F (quals F) = T
  only : ∀ G ∈ scope, typeOf G (quals G) = T → G = F

/-- A function declared with a name, parameter types, perhaps `const`, and no other qualifiers, overrides the virtual function `m`
([class.virtual]). Otherwise C++ rejects it if it is marked `override`. -/
structure OverridesMethod (quals : Func → Quals) (m : Func) (name : Str) (types : List Ty) (isConst : Bool) : Prop where
  name : name = m.name
  types : types.map adjusted = m.params.map fun p => adjusted p.ty
  isConst : isConst = m.isConst
  quals : quals m = .plain

/-- C++ writes the type completely before the name of a function that returns it: it has no arrays and functions behind pointers and
references. The type `int (&)(int)` of references to functions is not like that; a function that returns it is `int (&f())(int)`. -/
inductive BeforeName : Ty → Prop where
  | basic {k} : BeforeName (.basic k)
  | dep {k} : BeforeName (.dep k)
  | record {i} : BeforeName (.record i)
  | enum {i} : BeforeName (.enum i)
  | const {t} : BeforeName t → BeforeName (.const t)
  | ptr {t} : BeforeName t → BeforeName (.ptr t)
  | lref {t} : BeforeName t → BeforeName (.lref t)
  | rref {t} : BeforeName t → BeforeName (.rref t)

end Binder.Spec
