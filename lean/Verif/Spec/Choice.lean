import Verif.Spec.Overload
import Verif.Spec.Call

/-!
# Specification: the choice among overloads for objects of classes

Which of several functions with one name a C++ call `f(a, b)` or `o.f(a, b)` reaches if the arguments and `o` are variables of classes,
which may be derived from each other ([over.ics.rank]); and when pybind11 takes an object for a parameter.
-/

namespace Binder.Spec

open Cxx

/-- How a parameter takes an object. -/
inductive Mode where
  | value
  | ref
  | constRef
  | pointer
  deriving DecidableEq

/-- A parameter of type `C`, `C &`, `C const &`, `C *` or `C const *`: the class `C`, and how it takes the object. -/
def objectParam (t : Ty) : Option (Nat × Mode) :=
  match t.canon.unqual with
  | .record q => some (q, .value)
  | .lref u => match u.unqual with
    | .record q => some (q, if u.isConst then .constRef else .ref)
    | _ => none
  | .ptr u => match u.unqual with
    | .record q => some (q, .pointer)
    | _ => none
  | _ => none

/-- The classes: `isa r q` says that `r` is `q`, or is derived from `q`. -/
structure Hierarchy where
  isa : Nat → Nat → Prop
  refl : ∀ r, isa r r
  trans : ∀ {r p q}, isa r p → isa p q → isa r q
  antisymm : ∀ {p q}, isa p q → isa q p → p = q

variable (H : Hierarchy)

/-- C++: a variable of class `r` can be given to a parameter of type `t`, at most with a conversion to a base class. -/
def TakesVariable (r : Nat) (t : Ty) : Prop := ∃ q m, objectParam t = some (q, m) ∧ m ≠ .pointer ∧ H.isa r q

/-- C++: `t` is the better type for an object that both types take: a class derived from the other one; or, for the same class, `C &` as
compared with `C const &`. -/
def Closer (t u : Ty) : Prop :=
  ∃ p m q n, objectParam t = some (p, m) ∧ objectParam u = some (q, n) ∧ ((p ≠ q ∧ H.isa p q) ∨ (p = q ∧ m = .ref ∧ n = .constRef))

/-- C++: a parameter is better for an argument of class `r` than the parameter of another function (`none`: it falls to `...`). All other
conversions are worse. -/
def BetterFor (r : Nat) (p q : Option Ty) : Prop :=
  ∃ t, p = some t ∧ TakesVariable H r t ∧ ∀ u, q = some u → ¬ TakesVariable H r u ∨ Closer H t u

/-- C++: for an object that is not `const`, a member function that is not `const` is better than one that is. -/
def BetterSelf (F G : Func) : Prop := F.isInstance = true ∧ G.isInstance = true ∧ F.isConst = false ∧ G.isConst = true

/-- C++: a function is viable for arguments of classes. `conv` says which classes can be converted to which types in other ways. -/
structure ViableFor (conv : Nat → Ty → Prop) (args : List Nat) (G : Func) : Prop where
  number : TakesNumber G args.length
  fits : ∀ (i : Nat) (r : Nat) (t : Ty), args[i]? = some r → paramTy G i = some t → TakesVariable H r t ∨ conv r t

/-- C++: better for one argument, and for none worse. -/
structure BetterCall (args : List Nat) (F G : Func) : Prop where
  never : (∀ (i : Nat) (r : Nat), args[i]? = some r → ¬ BetterFor H r (paramTy G i) (paramTy F i)) ∧ ¬ BetterSelf G F
  once : (∃ (i : Nat) (r : Nat), args[i]? = some r ∧ BetterFor H r (paramTy F i) (paramTy G i)) ∨ BetterSelf F G

/-- C++: a call with variables of these classes, on an object that is not `const`, reaches `F` among all functions with the name, and
converts the arguments at most to base classes. -/
structure Chooses (conv : Nat → Ty → Prop) (args : List Nat) (scope : List Func) (F : Func) : Prop where
  found : F ∈ scope
  number : args.length ≤ F.params.length ∧ TakesNumber F args.length
  fits : ∀ (i : Nat) (r : Nat) (t : Ty), args[i]? = some r → paramTy F i = some t → TakesVariable H r t
  best : ∀ G ∈ scope, G ≠ F → ViableFor H conv args G → BetterCall H args F G

/-- pybind11: an object is taken as it is by parameters for its class or a base, no matter how they take it. `classOf` gives the class of an
object. -/
def CastsObjects {V : Type} (classOf : V → Nat) (can : Bool → Option Param → V → Bool) : Prop :=
  ∀ (p : Param) (v : V), can false (some p) v = true ↔ ∃ q m, objectParam p.ty = some (q, m) ∧ H.isa (classOf v) q

/-- `G` and `F` have parameters number `i` that take objects, of the classes `q` and `p`. -/
def BothTake (G F : Func) (i q p : Nat) : Prop :=
  ∃ t u m n, paramTy G i = some t ∧ paramTy F i = some u ∧ objectParam t = some (q, m) ∧ objectParam u = some (p, n)

/-- `G` may be defined before `F`, as far as calls with `k` objects are concerned: there is a parameter for which no object suits both
functions; or `G` is the better one in C++ if both are viable, because it has a closer parameter or is not `const`. In the second case no
parameter of `G` may be a pointer: Python passes objects for pointers, C++ does not. -/
def MayPrecede (G F : Func) (k : Nat) : Prop :=
  (∃ i, i < k ∧ ¬ ∃ r q p, BothTake G F i q p ∧ H.isa r q ∧ H.isa r p) ∨
  ((∀ i t q, i < k → paramTy G i = some t → objectParam t ≠ some (q, .pointer)) ∧
    ((∃ i t u, i < k ∧ paramTy G i = some t ∧ paramTy F i = some u ∧ Closer H t u) ∨ BetterSelf G F))

/-- `G` takes all objects that `F` takes, as far as calls with `k` objects are concerned. -/
def Covers (G F : Func) (k : Nat) : Prop := ∀ i, i < k → ∃ q p, BothTake G F i q p ∧ H.isa p q

/-- In C++, the classes of the first `k` parameters of `F` tell it apart from `G`: `G` does not take `k` arguments; or `F` is better for a
parameter, because that of `G` is not for this class, or is a pointer, or adds `const`; or `F` is not `const` and `G` is. `G` is never the
better one. -/
def ClassesTell (F G : Func) (k : Nat) : Prop :=
  ¬ TakesNumber G k ∨
  ((∀ i t u p, i < k → paramTy F i = some t → paramTy G i = some u → objectParam t = some (p, .constRef) → objectParam u ≠ some (p, .ref)) ∧
    ¬ BetterSelf G F ∧
    ((∃ i t p m, i < k ∧ paramTy F i = some t ∧ objectParam t = some (p, m) ∧ ∀ u n, paramTy G i = some u →
      objectParam u = some (p, n) → n = .pointer ∨ (m = .ref ∧ n = .constRef)) ∨ BetterSelf F G))

end Binder.Spec
