import Verif.Spec.Class

/-!
# Specification: the lock of the Python interpreter

What a thread does is a tree of calls. The lock of the interpreter (GIL) is held by the thread or is not. A call guard and a local variable of a
function have their effect until the function returns; then the lock is as it was before. Left out: what other threads do meanwhile, and
exceptions, which end functions like returns do.
-/

namespace Binder.Spec

/-- What a thread does. -/
inductive Act where
  /-- Python code runs and makes calls -/
  | python (calls : List Act)
  /-- C++ code of the library runs and makes calls -/
  | cxx (calls : List Act)
  /-- Python calls a bound function with this call guard, if it has one -/
  | call (guard : Option Str) (a : Act)
  /-- C++ calls a function of a callback structure with this body, which then runs Python or C++ code -/
  | virtual (body : Str) (a : Act)

/-- The effect of a call guard on the lock. Guards other than those of pybind11 have none. -/
def underGuard (guard : Option Str) (held : Bool) : Bool :=
  if guard = some c!"pybind11::gil_scoped_release" then false
  else if guard = some c!"pybind11::gil_scoped_acquire" then true
  else held

/-- The body of a function begins with a variable that acquires the lock. -/
def TakesLock (body : Str) : Prop := "\n\t\tpybind11::gil_scoped_acquire gil;\n".toList <+: body

instance (body : Str) : Decidable (TakesLock body) := by unfold TakesLock; infer_instance

/-- If the first act begins and the lock is held or not, as the first Boolean says, then in the course of it the second act takes place, and the
lock is held or not when it begins, as the second Boolean says. -/
inductive Occurs : Bool → Act → Bool → Act → Prop where
  | self {l : Bool} {a : Act} : Occurs l a l a
  | python {l l' : Bool} {as : List Act} {a b : Act} : a ∈ as → Occurs l a l' b → Occurs l (.python as) l' b
  | cxx {l l' : Bool} {as : List Act} {a b : Act} : a ∈ as → Occurs l a l' b → Occurs l (.cxx as) l' b
  | call {l l' : Bool} {g : Option Str} {a b : Act} : Occurs (underGuard g l) a l' b → Occurs l (.call g a) l' b
  | virtual {l l' : Bool} {body : Str} {a b : Act} : Occurs (l || decide (TakesLock body)) a l' b → Occurs l (.virtual body a) l' b

/-- Python code. -/
def Act.isPython : Act → Bool
  | .python _ => true
  | _ => false

/-- C++ code of the library. -/
def Act.isCxx : Act → Bool
  | .cxx _ => true
  | _ => false

/-- A call that Python makes. -/
def Act.isCall : Act → Bool
  | .call _ _ => true
  | _ => false

/-- A virtual call of a function of a callback structure. -/
def Act.isVirtual : Act → Bool
  | .virtual _ _ => true
  | _ => false

/-- What a thread can do with a module: Python reaches C++ only by bound functions, with call guards out of `guards`, and C++ reaches Python
only by functions of callback structures, with bodies out of `bodies`. A bound function may be a virtual one. -/
inductive ThreadPossible (guards : Option Str → Prop) (bodies : Str → Prop) : Act → Prop where
  | python {as : List Act} : (∀ a ∈ as, (a.isPython || a.isCall) = true) → (∀ a ∈ as, ThreadPossible guards bodies a) → ThreadPossible guards bodies (.python as)
  | cxx {as : List Act} : (∀ a ∈ as, (a.isCxx || a.isVirtual) = true) → (∀ a ∈ as, ThreadPossible guards bodies a) → ThreadPossible guards bodies (.cxx as)
  | call {g : Option Str} {a : Act} : guards g → (a.isCxx || a.isVirtual) = true → ThreadPossible guards bodies a → ThreadPossible guards bodies (.call g a)
  | virtual {body : Str} {a : Act} : bodies body → (a.isPython || a.isCxx) = true → ThreadPossible guards bodies a →
      ThreadPossible guards bodies (.virtual body a)

end Binder.Spec
