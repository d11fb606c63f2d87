import Verif.Spec.Builtin

/-!
# Specification: the headers with the conversions of pybind11

A C++ type that has no Python class of its own is converted when a function is called, by a template of pybind11 that is looked for when the call is
compiled. From the documentation of pybind11: `pybind11/pybind11.h` has the conversions of strings, pairs, tuples, smart pointers and the classes that
stand for Python objects; others are in headers that must be included. Without the header the code compiles all the same, and the call raises a
`TypeError`.
-/

namespace Binder.Spec

/-- The standard types that need no other header. -/
def basicConversions : List Str := [c!"basic_string", c!"pair", c!"tuple", c!"shared_ptr", c!"unique_ptr"]

/-- The classes for arrays of NumPy; the header that declares them has the conversion, too. -/
def arrays : List Str := [c!"dtype", c!"array", c!"array_t"]

/-- The types that pybind11 converts, and the header, if it is not the one that declares the type. -/
def conversions : List (Str × Str) :=
  basicConversions.map (fun t => (c!"std::" ++ t, c!"pybind11/pybind11.h")) ++
  (pythonObjects.filter (· ∉ arrays)).map (fun t => (c!"pybind11::" ++ t, c!"pybind11/pybind11.h")) ++
  convertedContainers.map (fun t => (c!"std::" ++ t, c!"pybind11/stl.h")) ++
  [(c!"std::function", c!"pybind11/functional.h"), (c!"std::complex", c!"pybind11/complex.h")]

/-- The text has a line that includes the header. -/
def IncludesHeader (text header : Str) : Prop :=
  ∃ before after, text = before ++ c!"#include <" ++ header ++ c!">\n" ++ after ∧ (before = [] ∨ before.getLast? = some '\n')

end Binder.Spec
