import Verif.Spec.Import

/-!
# Specification: the module a Python program sees
-/

namespace Binder.Spec

open Cxx

/-- The generated code makes the call. -/
def Made (U : TransUnit) (op : Op) : Prop :=
  ∃ v, Reached U v ∧ U.E.cfg.binderForNamespaces (namespaceOf U.E v) = none ∧ op ∈ opsOf U.E v

/-- The class has a Python class made by the generated code: it is bound, or a public member of a bound class; it is not left to a binder of
the user. -/
def HasClass (U : TransUnit) (i : Nat) : Prop :=
  (∃ v, Reached U v ∧ U.E.cfg.binderForNamespaces (namespaceOf U.E v) = none ∧ i ∈ registers U.E v) ∧
  U.E.cfg.binders (stdName U.E (U.E.cls i).qname) = none

/-- C++ inheritance as far as Python knows of it, between the names of classes: `j` is listed as a base of `i`
(`C61_class_statement`: public, bindable, not skipped), and so on. -/
inductive Derives (U : TransUnit) (listed : Nat → Nat → Prop) : Str → Str → Prop where
  | refl (q : Str) : Derives U listed q q
  | step {i j : Nat} {r : Str} : HasClass U i → listed i j → Derives U listed (classQualifiedName U.E (U.E.cls j)) r →
      Derives U listed (classQualifiedName U.E (U.E.cls i)) r

/-- `issubclass` in Python. -/
def Py.isSubclass (p : Py) (q r : Str) : Prop := r ∈ p.order q

end Binder.Spec
