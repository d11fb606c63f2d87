import Verif.Spec.CallRun
import Verif.Spec.Class

/-!
# Specification: where a member of an object is found
-/

namespace Binder.Spec

open Cxx

/-- The Python class for class `i` has the name `n` itself, from a bound declaration. -/
def HasMember (U : TransUnit) (n : Str) (i : Nat) : Prop :=
  ∃ op kind, Made U op ∧ ((.type (classQualifiedName U.E (U.E.cls i)), n), kind) ∈ op.binds

/-- C++ finds a member of an object of class `i` in class `k`, where `has` are the classes that declare it: `k` is `i` or a base of it, it
declares the member, and it hides the member of every other class that declares it; otherwise the name is ambiguous (C++ standard,
[class.member.lookup]). -/
def Finds (E : Env) (has : Nat → Prop) (i k : Nat) : Prop :=
  Inherits E anyBase i k ∧ has k ∧ ∀ j, Inherits E anyBase i j → has j → Inherits E anyBase k j

/-- Python knows class `i` and all of its bases, direct or not, as classes. -/
def WholeHierarchy (U : TransUnit) (listed : Nat → Nat → Prop) (i : Nat) : Prop :=
  ∀ j, Inherits U.E anyBase i j → HasClass U j ∧ ∀ b ∈ (U.E.cls j).bases, ∀ k, b.record = some k → listed j k

end Binder.Spec
