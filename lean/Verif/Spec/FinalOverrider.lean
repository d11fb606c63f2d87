import Verif.Spec.Class

/-!
# Specification: which implementation of a virtual function C++ runs
-/

namespace Binder.Spec

open Cxx

/-- Class `k` has the final overrider for an object of class `i` (C++ standard, [class.virtual]), where `has` are the classes that declare a virtual function with the
signature: every other of these classes is a base of `k`. -/
def FinalOverrider (E : Env) (ok : Base → Prop) (has : Nat → Prop) (i k : Nat) : Prop :=
  Inherits E ok i k ∧ has k ∧ ∀ c, Inherits E ok i c → has c → Inherits E ok k c

/-- No class is a base of `i` in two ways: two bases of `i`, or of a base of it, that have a base in common, or one of which is a base of the other, are the same. -/
def BasesOnce (E : Env) (ok : Base → Prop) (i : Nat) : Prop :=
  ∀ x, Inherits E ok i x → ∀ b ∈ (E.cls x).bases, ∀ b' ∈ (E.cls x).bases, ok b → ok b' → ∀ j j', b.record = some j → b'.record = some j' →
    ∀ c, Inherits E ok j c → Inherits E ok j' c → j = j'

end Binder.Spec
