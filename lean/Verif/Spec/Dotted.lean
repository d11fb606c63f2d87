import Verif.Spec.Surface
import Verif.Spec.Class
/-!
# Specification: what dotted names in Python stand for
-/

namespace Binder.Spec

open Cxx

/-- What a name in a Python scope stands for. -/
inductive Thing where
  /-- the module for a namespace -/
  | module (ns : Str)
  /-- the Python class for a C++ class or enumeration -/
  | type (cpp : Str)
  /-- an enumerator of an enumeration -/
  | value (cpp : Str) (enumerator : Str)
  /-- a function -/
  | func
  /-- a property for a data member -/
  | prop
deriving DecidableEq, Repr

/-- The names a call of pybind11 gives to things, the newest first. The enumerators of an enumeration become attributes of its Python class
(`enum_::value`), and of the scope of the enumeration (`enum_::export_values`). -/
def Op.gives : Op → List ((Scope × Str) × Thing)
  | .class_ s n q _ => [((s, n), .type q)]
  | .enum_ s n q vs ex => (if ex then vs.map fun v => ((s, v), .value q v) else []) ++
      (vs.map fun v => ((.type q, v), .value q v)) ++ [((s, n), .type q)]
  | .property s n => [((s, n), .prop)]
  | .function s n _ => [((s, n), .func)]
  | _ => []

/-- The full name of the namespace in an entry of the table of modules. -/
def fullName (x : Str × Str) : Str := if x.1 = [] then x.2 else x.1 ++ c!"::" ++ x.2

/-- The name an entry of the table of modules gives to a module. -/
def moduleGives (s : Scope) (n : Str) (x : Str × Str) : Option Thing :=
  if s = .module x.1 ∧ n = moduleName x.2 then some (.module (fullName x)) else none

/-- What a name in a scope stands for after the import: what the last call that gave the name gave it to. -/
def standsFor (pairs : List (Str × Str)) (ops : List Op) (s : Scope) (n : Str) : Option Thing :=
  match ops.reverse.findSome? fun op => op.gives.lookup (s, n) with
  | some t => some t
  | none => pairs.reverse.findSome? (moduleGives s n)

/-- The scope with the attributes of a thing. -/
def Thing.scope? : Thing → Option Scope
  | .module ns => some (.module ns)
  | .type q => some (.type q)
  | _ => none

/-- What `n1.n2. … .nk` stands for, read in a scope. -/
def dotted (pairs : List (Str × Str)) (ops : List Op) : Scope → List Str → Option Thing
  | _, [] => none
  | s, [n] => standsFor pairs ops s n
  | s, n :: m :: ms => match (standsFor pairs ops s n).bind Thing.scope? with
    | none => none
    | some s' => dotted pairs ops s' (m :: ms)

/-- The steps from the module of the namespace with the components `pre` to that of the namespace with the further components `cs`: the
scopes, and the names read in them. -/
def nsSteps : List Str → List Str → List (Scope × Str)
  | _, [] => []
  | pre, c :: cs => (.module (joinNs pre), moduleName c) :: nsSteps (pre ++ [c]) cs

/-- The class has a name, and its binding is not left to others. -/
structure PlainClass (E : Env) (i : Nat) : Prop where
  named : (E.cls i).isAnonymous = false
  builtin : builtinDecl E (E.cls i).qname = false
  binder : E.cfg.binders (stdName E (E.cls i).qname) = none

/-- The way from the root module to the Python class for a class: through the modules of its namespaces, and, if it is a member of a class,
through the class of which it is a member. -/
inductive ClassSteps (U : TransUnit) : Nat → List (Scope × Str) → Prop where
  | top {i : Nat} {cs : List Str} : Reached U (.cls i) → U.E.cfg.binderForNamespaces (namespaceOf U.E (.cls i)) = none → PlainClass U.E i →
      Components (namespaceOf U.E (.cls i)) cs →
      ClassSteps U i (nsSteps [] cs ++ [(.module (namespaceOf U.E (.cls i)), pythonClassName U.E (U.E.cls i))])
  | member {i j : Nat} {steps : List (Scope × Str)} : ClassSteps U i steps → j ∈ nestedBound U.E (U.E.cls i) → PlainClass U.E j →
      (U.E.cls j).outer = some i →
      ClassSteps U j (steps ++ [(.type (classQualifiedName U.E (U.E.cls i)), pythonClassName U.E (U.E.cls j))])

/-- The way from the root module to the scope of an enumeration, and this scope: the module of its namespace, or the class of which it is a
public member. -/
inductive EnumSteps (U : TransUnit) : Nat → List (Scope × Str) → Scope → Prop where
  | top {e : Nat} {cs : List Str} : Reached U (.enm e) → U.E.cfg.binderForNamespaces (namespaceOf U.E (.enm e)) = none →
      Components (namespaceOf U.E (.enm e)) cs → EnumSteps U e (nsSteps [] cs) (.module (namespaceOf U.E (.enm e)))
  | member {i e : Nat} {steps : List (Scope × Str)} : ClassSteps U i steps → Item.enum e ∈ classItems U.E i →
      EnumSteps U e steps (.type (classQualifiedName U.E (U.E.cls i)))

/-- The call gives a name to something else, although the name is that of a class, an enumeration or a module: an enumerator is exported, a
data member is bound, or a function whose name begins with an underscore. Other calls for a name that is taken fail. -/
def Op.takes (s : Scope) (n : Str) : Op → Prop
  | .enum_ s' _ _ vs ex => s' = s ∧ ex = true ∧ n ∈ vs
  | .property s' n' => s' = s ∧ n' = n
  | .function s' n' _ => s' = s ∧ n' = n ∧ n.head? = some '_'
  | _ => False

/-- No bound declaration takes the name for something else. -/
def Kept (U : TransUnit) (x : Scope × Str) : Prop := ∀ op, Made U op → ¬ op.takes x.1 x.2

/-- No two namespaces get the same Python name. -/
def DistinctModules (U : TransUnit) : Prop :=
  ∀ x y, HasModule U x → HasModule U y → x.1 = y.1 → moduleName x.2 = moduleName y.2 → x.2 = y.2

end Binder.Spec
