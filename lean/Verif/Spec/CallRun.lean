import Verif.Spec.Call
import Verif.Spec.Surface

/-!
# Specification: the functions of an imported module
-/

namespace Binder.Spec

open Cxx

/-- The function that a statement of a class binds, unless it is a constructor or `__str__`. -/
def itemBinding (s : Scope) : Item → Option (Scope × Binding)
  | .method f parent lam => some (s, ⟨f, parent, lam⟩)
  | _ => none

/-- The functions that a class binds, apart from constructors and `__str__`, with the Python scopes they get into. -/
def classBindingsF (E : Env) : Nat → Scope → Nat → List (Scope × Binding)
  | 0, _, _ => []
  | n + 1, outer, i =>
    let C := E.cls i
    let s := if C.isAnonymous then outer else .type (classQualifiedName E C)
    if builtinDecl E C.qname then []
    else if (E.cfg.binders (stdName E C.qname)).isSome then []
    else (classItems E i).filterMap (itemBinding s) ++
      (nestedBound E C).flatMap (classBindingsF E n s)

/-- The functions that a declaration binds. -/
def bindingsOf (E : Env) : Visit → List (Scope × Binding)
  | .fn F => [(.module (nsOf E F.qname F.name), ⟨F, none, false⟩)]
  | .cls i => classBindingsF E (E.nestRank i + 1) (.type []) i
  | .enm _ => []

/-- The functions with a name in a scope, in the order of their `def` statements. -/
def bindingsIn (E : Env) (srcs : List Source) (s : Scope) (n : Str) : List Binding :=
  (((srcs.flatMap Source.bound).flatMap (bindingsOf E)).filter fun x => decide (x.1 = s) && decide (boundName E x.2.F = n)).map (·.2)

/-- The calls of pybind11 that define a function with a name in a scope. -/
def Op.defines (s : Scope) (n : Str) : Op → Bool
  | .function s' n' _ => decide (s' = s) && decide (n' = n)
  | _ => false

/-- The class in which Python finds a name, looking at the class itself and its bases. -/
def Py.owner (p : Py) (q n : Str) : Option Str := (p.order q).find? fun t => (p.own (.type t) n).isSome

end Binder.Spec
