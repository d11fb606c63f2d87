import Verif.Basic.Str
import Verif.Model.Config

/-!
# Model of the symbol tables of `source/type.cpp`

Line numbers refer to `/repo/source/type.cpp`.
-/

namespace Binder

/-- `known_builtin`, lines 689-756, with the configured holder type. The C++ set is a function-local `static`: it captures the
holder type of the first call; the model takes that value as an argument. -/
def knownBuiltin (holder : Str) : List Str :=
  [c!"std::basic_string", c!"std::initializer_list", c!"std::__1::basic_string", c!"std::allocator",
   c!"std::__allocator_destructor", holder, c!"std::shared_ptr", c!"std::enable_shared_from_this", c!"std::__shared_ptr",
   c!"std::unique_ptr", c!"std::pair", c!"std::tuple", c!"std::_Rb_tree_iterator", c!"std::_Rb_tree_const_iterator",
   c!"__gnu_cxx::__normal_iterator", c!"std::_List_iterator", c!"std::_List_const_iterator", c!"std::__list_node",
   c!"std::__wrap_iter", c!"std::less", c!"std::__value_type", c!"std::__detail::_Hash_node_base",
   c!"std::__detail::_Hash_node", c!"std::__detail::_Node_iterator", c!"std::__detail::_Node_iterator_base",
   c!"std::__detail::_Node_const_iterator", c!"std::__hash_value_type", c!"std::function", c!"std::complex",
   c!"pybind11::handle", c!"pybind11::object", c!"pybind11::module_", c!"pybind11::iterator", c!"pybind11::type",
   c!"pybind11::iterable", c!"pybind11::str", c!"pybind11::bytes", c!"pybind11::bytesarray", c!"pybind11::none",
   c!"pybind11::ellipsis", c!"pybind11::bool_", c!"pybind11::int_", c!"pybind11::float_", c!"pybind11::weakref",
   c!"pybind11::slice", c!"pybind11::capsule", c!"pybind11::tuple", c!"pybind11::args", c!"pybind11::dict",
   c!"pybind11::kwargs", c!"pybind11::sequence", c!"pybind11::list", c!"pybind11::anyset", c!"pybind11::frozenset",
   c!"pybind11::set", c!"pybind11::function", c!"pybind11::cpp_function", c!"pybind11::staticmethod", c!"pybind11::buffer",
   c!"pybind11::memoryview", c!"pybind11::array", c!"pybind11::array_t"]

/-- `stl_builtin`, lines 758-773. -/
def stlBuiltin : List Str :=
  [c!"std::vector", c!"std::deque", c!"std::list", c!"std::array", c!"std::valarray", c!"std::set", c!"std::unordered_set",
   c!"std::map", c!"std::unordered_map", c!"std::experimental::optional", c!"std::optional", c!"std::variant"]

/-- `is_python_builtin`, lines 683-786, on the standard form `name` of the qualified name. `stl` is `O_include_pybind11_stl`,
`holder` the holder type captured by the static set. -/
def isPythonBuiltin (c : Config) (stl : Bool) (holder name : Str) : Bool :=
  if c.notPythonBuiltins.contains name then false
  else if c.pythonBuiltins.contains name || (knownBuiltin holder).contains name then true
  else if stl && stlBuiltin.contains name then true
  else false

/-- `is_banned_symbol`, lines 789-811, on the standard form of the qualified name. -/
def isBannedSymbol (name : Str) : Bool :=
  if beginsWith name c!"std::_" then true
  else [c!"std::initializer_list", c!"std::locale::facet"].contains name

end Binder
