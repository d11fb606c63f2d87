import Verif.Basic.Str

/-!
# The types Python code gets without a binding

Lists for C09 and C107, written from the documentation and from pybind11, not from the model.
-/

namespace Binder.Spec

/-- Class templates and classes of the standard library that the tool treats as Python types: strings, smart pointers, pairs, tuples,
functions, complex numbers; and helper classes of the two implementations of the standard library that are never bound. -/
def standardTypes : List Str :=
  [c!"basic_string", c!"initializer_list", c!"__1::basic_string",
   c!"shared_ptr", c!"__shared_ptr", c!"unique_ptr", c!"enable_shared_from_this",
   c!"pair", c!"tuple", c!"function", c!"complex", c!"less", c!"allocator", c!"__allocator_destructor",
   c!"_Rb_tree_iterator", c!"_Rb_tree_const_iterator", c!"_List_iterator", c!"_List_const_iterator", c!"__list_node", c!"__wrap_iter",
   c!"__value_type", c!"__hash_value_type",
   c!"__detail::_Hash_node_base", c!"__detail::_Hash_node", c!"__detail::_Node_iterator", c!"__detail::_Node_iterator_base",
   c!"__detail::_Node_const_iterator"]

/-- The classes of pybind11 that stand for Python objects (`pybind11/pytypes.h`, `pybind11/pybind11.h`, `pybind11/numpy.h`). -/
def pythonObjects : List Str :=
  [c!"handle", c!"object", c!"module_", c!"type", c!"none", c!"ellipsis", c!"bool_", c!"int_", c!"float_",
   c!"str", c!"bytes", c!"bytearray", c!"tuple", c!"list", c!"dict", c!"anyset", c!"set", c!"frozenset", c!"args", c!"kwargs",
   c!"sequence", c!"iterable", c!"iterator", c!"slice", c!"weakref", c!"capsule", c!"function", c!"cpp_function", c!"staticmethod",
   c!"buffer", c!"memoryview", c!"dtype", c!"array", c!"array_t"]

/-- The ones the tool does not know. -/
def unknownPythonObjects : List Str := [c!"bytearray", c!"dtype"]

/-- The templates that `pybind11/stl.h` converts to Python lists, sets, dictionaries, `None` and so on. -/
def convertedContainers : List Str :=
  [c!"vector", c!"deque", c!"list", c!"array", c!"valarray", c!"set", c!"unordered_set", c!"map", c!"unordered_map",
   c!"optional", c!"experimental::optional", c!"variant"]

/-- A type the tool knows to be a Python type: the configured holder, one of the standard library, a Python object of pybind11 (and a
class `bytesarray`, which pybind11 does not have), or the iterator of vectors of the GNU library. -/
def KnownPythonType (holder name : Str) : Prop :=
  name = holder ∨ name ∈ standardTypes.map (c!"std::" ++ ·) ∨
  (name ∈ pythonObjects.map (c!"pybind11::" ++ ·) ∧ name ∉ unknownPythonObjects.map (c!"pybind11::" ++ ·)) ∨
  name = c!"pybind11::bytesarray" ∨ name = c!"__gnu_cxx::__normal_iterator"

/-- A container that is converted by `pybind11/stl.h`. -/
def ConvertedContainer (name : Str) : Prop := name ∈ convertedContainers.map (c!"std::" ++ ·)

/-- A name that no binding may use: it is reserved for the implementation of the standard library, or one of two special classes. -/
def ReservedName (name : Str) : Prop :=
  c!"std::_" <+: name ∨ name = c!"std::initializer_list" ∨ name = c!"std::locale::facet"

end Binder.Spec
