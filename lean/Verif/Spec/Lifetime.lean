import Verif.Spec.CallRun

/-!
# Specification: who destroys the objects that Python and C++ share

What pybind11 does with an object that a bound function returns, and what can happen to such objects afterwards, in any order: Python calls
functions and forgets objects, C++ makes and destroys objects. Left out: `std::shared_ptr` and `std::unique_ptr` as return types, functions
that take ownership of their arguments, holder types that do not destroy (see C65), and that memory is used again for other objects.
-/

namespace Binder.Spec

open Cxx

/-- The return value policies of pybind11. -/
inductive Policy where
  | automatic | automaticReference | takeOwnership | copy | move | reference | referenceInternal
deriving DecidableEq

/-- C++ text of a policy. -/
def Policy.text : Policy → Str
  | .automatic => c!"pybind11::return_value_policy::automatic"
  | .automaticReference => c!"pybind11::return_value_policy::automatic_reference"
  | .takeOwnership => c!"pybind11::return_value_policy::take_ownership"
  | .copy => c!"pybind11::return_value_policy::copy"
  | .move => c!"pybind11::return_value_policy::move"
  | .reference => c!"pybind11::return_value_policy::reference"
  | .referenceInternal => c!"pybind11::return_value_policy::reference_internal"

/-- What becomes of the result: the Python object owns it; Python gets an object of its own, copied or moved from it; the Python object
only refers to it; it refers to it, and keeps the object alive whose method was called. -/
inductive Cast where
  | take | copy | refer | internal
deriving DecidableEq

/-- What the policies mean, for functions that return a pointer or a reference (`type_caster_base::cast`). -/
def castOf : ReturnKind → Policy → Cast
  | .rvalueReference, _ => .copy
  | .lvalueReference, .automatic => .copy
  | .lvalueReference, .automaticReference => .copy
  | .pointer, .automatic => .take
  | .pointer, .automaticReference => .refer
  | _, .takeOwnership => .take
  | _, .copy => .copy
  | _, .move => .copy
  | _, .reference => .refer
  | _, .referenceInternal => .internal

/-- What a function that returns a pointer or a reference promises about the object: it is new and the caller has to destroy it; it is a part
of the object whose method was called, or that object itself; it is, or is a part of, an object that C++ destroys itself. -/
inductive Promise where
  | gives | internal | borrowed
deriving DecidableEq

/-- An object in memory. Part 0 of a block is the complete object; its other parts are made and destroyed with it. -/
structure Addr where
  block : Nat
  part : Nat
deriving DecidableEq

/-- A Python object that stands for a C++ object. -/
structure Inst where
  id : Nat
  addr : Addr
  owns : Bool
  keeps : Option Nat

/-- All objects: the blocks that exist, those that C++ will destroy, the Python objects, and all that was destroyed so far; and the numbers
of blocks and of Python objects made so far. -/
structure Heap where
  live : List Nat := []
  cxx : List Nat := []
  insts : List Inst := []
  destroyed : List Addr := []
  blocks : Nat := 0
  ids : Nat := 0

namespace Heap

/-- A new block. -/
def grow (w : Heap) : Heap := { w with live := w.blocks :: w.live, blocks := w.blocks + 1 }

/-- A new Python object. -/
def add (w : Heap) (a : Addr) (owns : Bool) (keeps : Option Nat) : Heap :=
  { w with insts := ⟨w.ids, a, owns, keeps⟩ :: w.insts, ids := w.ids + 1 }

/-- The Python object for a result: if there is one for this C++ object already, it is that one. -/
def wrap (w : Heap) (c : Cast) (self : Option Nat) (a : Addr) : Heap :=
  if w.insts.any (fun i => decide (i.addr = a)) then w
  else match c with
    | .take => w.add a true none
    | .copy => w.grow.add ⟨w.blocks, 0⟩ true none
    | .refer => w.add a false none
    | .internal => w.add a false self

/-- An object is destroyed. -/
def destroy (w : Heap) (a : Addr) : Heap := { w with live := w.live.filter (· ≠ a.block), destroyed := a :: w.destroyed }

end Heap

/-- A function as Python knows it. -/
structure Getter where
  kind : ReturnKind
  policy : Policy
  promise : Promise

/-- What can happen. `patient`: C++ does not destroy what Python refers to. -/
inductive Happens (getters : Getter → Prop) (patient : Bool) : Heap → Heap → Prop where
  /-- Python makes an object with a constructor, or gets one from a function that returns it by value -/
  | make {w : Heap} : Happens getters patient w (w.grow.add ⟨w.blocks, 0⟩ true none)
  /-- C++ makes an object for itself -/
  | cxxMake {w : Heap} : Happens getters patient w { w.grow with cxx := w.blocks :: w.cxx }
  /-- C++ destroys an object of its own -/
  | cxxDestroy {w : Heap} {b : Nat} : b ∈ w.cxx → (patient = true → ∀ i ∈ w.insts, i.addr.block ≠ b) →
      Happens getters patient w { w.destroy ⟨b, 0⟩ with cxx := w.cxx.filter (· ≠ b) }
  /-- Python calls a function that makes an object and gives it away -/
  | gives {w : Heap} {g : Getter} {self : Option Nat} : getters g → g.promise = .gives →
      Happens getters patient w (w.grow.wrap (castOf g.kind g.policy) self ⟨w.blocks, 0⟩)
  /-- Python calls a function that returns a part of its object -/
  | internal {w : Heap} {g : Getter} {s : Inst} {a : Addr} : getters g → g.promise = .internal → s ∈ w.insts → s.addr.block ∈ w.live →
      a.block = s.addr.block → Happens getters patient w (w.wrap (castOf g.kind g.policy) (some s.id) a)
  /-- Python calls a function that returns an object of C++ -/
  | borrowed {w : Heap} {g : Getter} {self : Option Nat} {a : Addr} : getters g → g.promise = .borrowed → a.block ∈ w.cxx → a.block ∈ w.live →
      Happens getters patient w (w.wrap (castOf g.kind g.policy) self a)
  /-- Python reads a data member that is an object -/
  | field {w : Heap} {s : Inst} {a : Addr} : s ∈ w.insts → s.addr.block ∈ w.live → a.block = s.addr.block →
      Happens getters patient w (w.wrap .internal (some s.id) a)
  /-- Python forgets an object that no other object keeps alive, and destroys what it owns -/
  | forget {w : Heap} {i : Inst} : i ∈ w.insts → (∀ j ∈ w.insts, j.keeps ≠ some i.id) →
      Happens getters patient w { (if i.owns then w.destroy i.addr else w) with insts := w.insts.filter (·.id ≠ i.id) }

/-- The states that are possible after the import. -/
inductive PossibleHeap (getters : Getter → Prop) (patient : Bool) : Heap → Prop where
  | start : PossibleHeap getters patient {}
  | step {w w' : Heap} : PossibleHeap getters patient w → Happens getters patient w w' → PossibleHeap getters patient w'

/-- Nothing was destroyed twice, and no part without the complete object. -/
def DestroyedOnce (w : Heap) : Prop := w.destroyed.Nodup ∧ ∀ a ∈ w.destroyed, a.part = 0

/-- Every Python object stands for an object that exists. -/
def NoDangling (w : Heap) : Prop := ∀ i ∈ w.insts, i.addr.block ∈ w.live

/-- Every object that exists is destroyed some day: by C++, or together with a Python object. -/
def NoLeak (w : Heap) : Prop := ∀ b ∈ w.live, b ∈ w.cxx ∨ ∃ i ∈ w.insts, i.owns = true ∧ i.addr = ⟨b, 0⟩

/-- A class type, apart from `const` and typedefs. -/
def isObjectType : Ty → Bool
  | .record _ => true
  | .const t => isObjectType t
  | .sugar _ t => isObjectType t
  | _ => false

/-- The type is a pointer or a reference to an object of a class. -/
def refersToObject : Ty → Bool
  | .ptr t => isObjectType t
  | .lref t => isObjectType t
  | .rref t => isObjectType t
  | .const t => refersToObject t
  | .sugar _ t => refersToObject t
  | _ => false

/-- The functions of the module. -/
def moduleBindings (E : Env) (srcs : List Source) : List Binding := ((srcs.flatMap Source.bound).flatMap (bindingsOf E)).map (·.2)

/-- The `def` statements in the text of the bindings. -/
def DefsOf (E : Env) (bs : List Binding) (defs : Binding → List Def) : Prop :=
  ∀ b ∈ bs, defs b ≠ [] ∧ ∀ module, ∃ comment,
    bindFunctionText E module b.F b.parent b.lam = comment ++ ((defs b).map fun x => module ++ x.text ++ c!"\n").flatten

/-- The functions that return pointers and references to objects, with the policies in their `def` statements. -/
def Getters (bs : List Binding) (defs : Binding → List Def) (promise : Func → Promise) (g : Getter) : Prop :=
  ∃ b ∈ bs, refersToObject b.F.ret = true ∧ returnKind b.F.ret = some g.kind ∧ promise b.F = g.promise ∧ ∃ d ∈ defs b, d.policy = some g.policy.text

/-- By the configuration, Python becomes the owner of what the function returns. -/
def TakesOver (cfg : Config) (F : Func) : Prop :=
  match returnKind F.ret with
  | some .pointer => policyFor cfg F.isInstance (some .pointer) = some Policy.takeOwnership.text ∨
      policyFor cfg F.isInstance (some .pointer) = some Policy.automatic.text
  | some .lvalueReference => policyFor cfg F.isInstance (some .lvalueReference) = some Policy.takeOwnership.text
  | _ => False

/-- By the configuration, Python gets an object of its own, or keeps the object alive whose method was called. -/
def KeepsAlive (cfg : Config) (F : Func) : Prop :=
  match returnKind F.ret with
  | some .pointer => ∃ p ∈ [Policy.copy, .move, .referenceInternal], policyFor cfg F.isInstance (some .pointer) = some p.text
  | some .lvalueReference => ∃ p ∈ [Policy.automatic, .automaticReference, .copy, .move, .referenceInternal],
      policyFor cfg F.isInstance (some .lvalueReference) = some p.text
  | _ => True

/-- The policies for pointers and references to objects are policies of pybind11; otherwise the generated code does not compile. -/
def PoliciesKnown (cfg : Config) (bs : List Binding) : Prop :=
  ∀ b ∈ bs, refersToObject b.F.ret = true → ∀ k, returnKind b.F.ret = some k → ∃ p : Policy, policyFor cfg b.F.isInstance (some k) = some p.text

end Binder.Spec
