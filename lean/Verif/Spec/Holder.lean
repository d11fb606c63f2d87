import Verif.Spec.Class

/-!
# Specification: holders of Python objects

A Python object of a class that pybind11 knows keeps its C++ object in a holder, whose type is the second argument of `class_`. Two rules of
pybind11 are about holders. When a class is made, the holders of the class and of each base must both be `std::unique_ptr`, or neither
("type ... does not have a non-default holder type while its base ... does"); otherwise the import ends with an exception. And a function
that takes a smart pointer `S<Q>` copies the holder of the object it gets, which pybind11 takes to be an `S<...>` without looking.
-/

namespace Binder.Spec

open Cxx

/-- The class is held by a smart pointer `s<...>` to it. -/
def ClassDef.HeldBy (d : ClassDef) (s : Str) : Prop := d.holder = s ++ c!"<" ++ d.name ++ c!">"

/-- The holder is the default one of pybind11. -/
def ClassDef.DefaultHolder (d : ClassDef) : Prop := d.HeldBy c!"std::unique_ptr"

/-- pybind11 accepts the holder of the class `d` next to that of its base `b`. -/
def ClassDef.Accepts (d b : ClassDef) : Prop := d.DefaultHolder ↔ b.DefaultHolder

/-- The type is a smart pointer `s<Q>` to class `q`, or `s<const Q>`, or a reference to one. -/
def PointsTo (E : Env) (s : Str) (q : Nat) : Ty → Prop
  | .record k => (E.cls k).qname = s ∧ ∃ text t, (E.cls k).targs = some [⟨text, .type t⟩] ∧ (t = .record q ∨ t = .const (.record q))
  | .const t => PointsTo E s q t
  | .lref t => PointsTo E s q t
  | .sugar _ t => PointsTo E s q t
  | _ => False

end Binder.Spec
