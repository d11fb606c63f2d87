import Verif.Model.Ast

/-!
# Specification: which types can be used in a binding

Only the AST types of `Verif.Model.Ast` are used, no function of the model.
-/

namespace Binder.Spec

open Cxx

/-- `u` is `t` or is reached from it by removing qualifiers, typedefs, pointers and references. -/
inductive Mentions : Ty → Ty → Prop where
  | refl {t} : Mentions t t
  | const {t u} : Mentions t u → Mentions (.const t) u
  | sugar {k t u} : Mentions t u → Mentions (.sugar k t) u
  | ptr {t u} : Mentions t u → Mentions (.ptr t) u
  | lref {t u} : Mentions t u → Mentions (.lref t) u
  | rref {t u} : Mentions t u → Mentions (.rref t) u

/-- No pointer or reference of the type is hidden behind a typedef. -/
inductive Unhidden : Ty → Prop where
  | const {t} : Unhidden t → Unhidden (.const t)
  | ptr {t} : Unhidden t → Unhidden (.ptr t)
  | lref {t} : Unhidden t → Unhidden (.lref t)
  | rref {t} : Unhidden t → Unhidden (.rref t)
  | leaf {t} : (∀ u, t.head ≠ .ptr u) → (∀ u, t.head ≠ .lref u) → (∀ u, t.head ≠ .rref u) → Unhidden t

/-- A class or enumeration that can be named everywhere. -/
def Accessible (a : Access) : Prop := a = .pub ∨ a = .none

/-- What can appear in the type of a parameter, result or field; `classOk` says which classes can. -/
structure Usable (E : Env) (classOk : Nat → Prop) (u : Ty) : Prop where
  noFunctionPointer : ∀ p, u.head = .ptr p → ∀ r ps, p.head ≠ .fn r ps
  noPointerToPointer : ∀ p q, u.head = .ptr p → p.head ≠ .ptr q
  noPointerToArray : ∀ p q, u.head = .ptr p → p.head ≠ .arr q
  noRvalueReference : ∀ p, u.head ≠ .rref p
  noArray : ∀ p, u.head ≠ .arr p
  noDependent : u.dependent = false
  cls : ∀ j, u.head = .record j → classOk j ∧ Accessible (E.cls j).access
  enm : ∀ j, u.head = .enum j → Accessible (E.enumD j).access

/-- A class that can be named outside its file and has a definition, or is an instance of a template. -/
structure UsableClass (C : Record) : Prop where
  access : Accessible C.access
  named : C.inAnonymousNamespace = false
  linkage : C.hasNameForLinkage = true ∨ C.outer.isSome = true
  notDependent : C.isDependent = false
  complete : C.isComplete = true ∨ C.targs.isSome = true

end Binder.Spec
