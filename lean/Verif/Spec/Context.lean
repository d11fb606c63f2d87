import Verif.Model.Context

/-!
# Specification: which declarations are registered, bound, and in which order

Only the record types `Decl`, `Rec` and `SortItem` of the model are used.
-/

namespace Binder.Spec

/-- The declarations that get registered: the first one offered under each identifier, in the order of first offers. -/
def firstSeen : List Decl → List Decl
  | [] => []
  | d :: ds => d :: (firstSeen ds).filter (fun e => e.ident ≠ d.ident)

/-- A type name denotes the last registered declaration of that type. -/
def Denotes (ds : List Decl) (t : Str) (d : Decl) : Prop :=
  ∃ before after, ds = before ++ d :: after ∧ d.typeName = some t ∧ ∀ e ∈ after, e.typeName ≠ some t

/-- A declaration the tool may bind at all: bindable, not skipped by the user, not a Python builtin. -/
def Eligible (d : Decl) : Prop := d.canBind = true ∧ d.skipAsked = false ∧ d.builtin = false

/-- The least set of declarations that contains what the configuration requests outside system headers and is closed under
"binding this declaration requests that type". -/
inductive Bound (ds : List Decl) : Decl → Prop where
  | asked {d} : d ∈ ds → Eligible d → d.bindAsked = true → d.inSystem = false → Bound ds d
  | mentioned {c d t} : Bound ds c → t ∈ c.requests → Denotes ds t d → Eligible d → Bound ds d

/-- `c` must be registered with Python before the class of `b` is: `b` is a class, lists `c`, and `c` is not a builtin. -/
def Needs (b : SortItem) (c : Rec) : Prop := b.decl.record.isSome = true ∧ c ∈ b.deps ∧ c.builtin = false

/-- Class `c` is declared in the list. -/
def Declared (l : List SortItem) (c : Rec) : Prop := ∃ b ∈ l, b.decl.record = some c

/-- One dependency step between declared classes: some element of the list is the class `q` and needs `p`. -/
def DependsOn (l : List SortItem) (q p : Rec) : Prop := ∃ b ∈ l, b.decl.record = some q ∧ Needs b p

/-- A non-empty chain of dependency steps. -/
inductive DependsPlus (l : List SortItem) : Rec → Rec → Prop where
  | one {q p} : DependsOn l q p → DependsPlus l q p
  | more {q p o} : DependsOn l q p → DependsPlus l p o → DependsPlus l q o

/-- No class depends on itself, directly or indirectly. -/
def Acyclic (l : List SortItem) : Prop := ∀ c, ¬ DependsPlus l c c

end Binder.Spec
