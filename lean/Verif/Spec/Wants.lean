import Verif.Spec.Run
import Verif.Spec.Includes

/-!
# Specification: why a source includes a header
-/

namespace Binder.Spec

open Cxx

/-- The class `j` is `i`, or a public nested class of it at any depth. -/
inductive Inside (E : Env) : Nat → Nat → Prop where
  | refl {i} : Inside E i i
  | inner {i k j} : k ∈ E.nestedClasses (E.cls i) → Inside E k j → Inside E i j

/-- The function `m` is called by the binding of the class `i`, without being bound there: the callback structure overrides it, or it prints
objects of the class. -/
def CalledBy (E : Env) (i : Nat) (m : Func) : Prop := (trampoline E i = true ∧ ∃ o ∈ overrides E i, o.method = m) ∨ Item.repr m ∈ classItems E i

/-- Reasons for a declaration to have an include line. -/
inductive Wants (E : Env) : Visit → Str → Prop where
  /-- The declaration itself, and what its binding asks for (`Asked`). -/
  | own {v d l x} : Asked E (fun d l => d = nodeOf v ∧ l = 0) d l → Brings E d x → Wants E v x
  /-- The same for the classes nested in it. -/
  | nested {i j d l x} : Inside E i j → Asked E (fun d l => d = .cls j ∧ l = 0) d l → Brings E d x → Wants E (.cls i) x
  /-- The same for functions that the binding calls. -/
  | called {i m d l x} : CalledBy E i m → Asked E (fun d l => d = .fn m ∧ l = 0) d l → Brings E d x → Wants E (.cls i) x
  /-- Classes have the header for `__str__`. -/
  | printing {i} : Wants E (.cls i) c!"<sstream> // __str__"
  /-- The user has said so for the class. -/
  | configured {i j y} : Inside E i j → y ∈ E.cfg.classIncludes (stdName E (E.cls j).qname) →
      Wants E (.cls i) (if E.opts.annotateIncludes then y ++ c!" // +include_for_class" else y)

end Binder.Spec
