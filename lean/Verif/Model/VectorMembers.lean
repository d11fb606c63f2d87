import Verif.Basic.Str

/-!
# Model of the methods that `vector_binder` adds to the Python class of a vector

Line numbers refer to `/repo/source/stl_binders.hpp`. The constructor of `vector_binder` runs when the generated module is imported.
-/

namespace Binder

/-- The member functions of `std::vector` whose addresses are passed to `def`, lines 42-48. -/
inductive VectorFn where
  | empty | maxSize | reserve | capacity | shrinkToFit | clear | swap
  deriving DecidableEq, Repr

/-- What a C++ member function takes, as far as pybind11 looks at it: `size_type`, or a reference to a vector of the same type. -/
inductive VectorParam where
  | size | vector
  deriving DecidableEq, Repr

/-- The parameters of the functions: `reserve(size_type)`, and for `swap` those of the type that the cast on line 48 asks for. -/
def VectorFn.params : VectorFn → List VectorParam
  | .empty => []
  | .maxSize => []
  | .reserve => [.size]
  | .capacity => []
  | .shrinkToFit => []
  | .clear => []
  | .swap => [.vector]

/-- What `pybind11::bind_vector` (line 37) has defined before under a name that the next lines use too: `clear` with no arguments, a
lambda that calls `v.clear()`. Its other names are left out; none of them is in `vectorBinderDefs`. -/
def bindVectorDefs : List (Str × VectorFn) := [(c!"clear", .clear)]

/-- The calls of `cl.def`, lines 42-48, in their order. -/
def vectorBinderDefs : List (Str × VectorFn) :=
  [(c!"empty", .empty),
   (c!"max_size", .maxSize),
   (c!"reserve", .reserve),
   (c!"capacity", .capacity),
   (c!"shrink_to_fit", .shrinkToFit),
   (c!"clear", .clear),
   (c!"swap", .swap)]

/-- The arguments of a call in Python: a number that fits into `size_type`, an object that holds a vector of the same type, or anything
else. -/
inductive VectorArg where
  | size (n : Nat)
  | vector (i : Nat)
  | other
  deriving DecidableEq, Repr

/-- Does pybind11 convert the argument for this parameter? -/
def VectorParam.takes : VectorParam → VectorArg → Bool
  | .size, .size _ => true
  | .vector, .vector _ => true
  | _, _ => false

/-- Does it convert all of them? -/
def takesAll : List VectorParam → List VectorArg → Bool
  | [], [] => true
  | p :: ps, a :: as => p.takes a && takesAll ps as
  | _, _ => false

/-- The function that a call in Python reaches: pybind11 tries the definitions of the name in their order and takes the first whose
parameters fit; `none` for a `TypeError` or an `AttributeError`. -/
def vectorCallee (name : Str) (args : List VectorArg) : Option VectorFn :=
  ((bindVectorDefs ++ vectorBinderDefs).find? fun d => d.1 == name && takesAll d.2.params args).map (·.2)

end Binder
