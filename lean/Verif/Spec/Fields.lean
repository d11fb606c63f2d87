import Verif.Spec.Lookup

/-!
# Specification: the data members of an imported module
-/

namespace Binder.Spec

open Cxx

/-- What a property reads and writes: the field of the class that is named in the statement. -/
structure Slot where
  owner : Nat
  field : Field

/-- The data member that a statement of a class binds. -/
def itemSlot (s : Scope) : Item → Option (Scope × Slot)
  | .field owner f => some (s, ⟨owner, f⟩)
  | _ => none

/-- The data members that a class binds, with the Python scopes they get into. -/
def classSlotsF (E : Env) : Nat → Scope → Nat → List (Scope × Slot)
  | 0, _, _ => []
  | n + 1, outer, i =>
    let C := E.cls i
    let s := if C.isAnonymous then outer else .type (classQualifiedName E C)
    if builtinDecl E C.qname then []
    else if (E.cfg.binders (stdName E C.qname)).isSome then []
    else (classItems E i).filterMap (itemSlot s) ++ (nestedBound E C).flatMap (classSlotsF E n s)

/-- The data members that a declaration binds. -/
def slotsOf (E : Env) : Visit → List (Scope × Slot)
  | .cls i => classSlotsF E (E.nestRank i + 1) (.type []) i
  | _ => []

/-- The data members with a name in a scope, in the order of their statements. -/
def slotsIn (E : Env) (srcs : List Source) (s : Scope) (n : Str) : List Slot :=
  (((srcs.flatMap Source.bound).flatMap (slotsOf E)).filter fun x => decide (x.1 = s) && decide (x.2.field.name = n)).map (·.2)

/-- The calls of pybind11 that make a property with a name in a scope. -/
def Op.sets (s : Scope) (n : Str) : Op → Bool
  | .property s' n' => decide (s' = s) && decide (n' = n)
  | _ => false

/-- The data member behind a property of a Python class: a property takes the place of an earlier one of the same name. -/
def slotOf (E : Env) (srcs : List Source) (q n : Str) : Option Slot := (slotsIn E srcs (.type q) n).getLast?

end Binder.Spec
