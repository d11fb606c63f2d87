import Verif.Conform.Base

/-! # Conformance: `/repo/test/T11.override.hpp`, trampolines -/

namespace Binder.Conform.T11
open Binder Cxx

/-- The header as included. -/
def h := c!"<T11.override.hpp>"

def str : Ty := .sugar 0 (.record 1)

def v (m : Str) (t : Ty) (p : Bool := false) : Member := .method (method h c!"Base" 0 m t [] (isVirtual := true) (isPure := p))

def classes : List Record :=
 [{record h [] c!"Base" [field c!"Base" c!"s_" str, v c!"foo_void" tVoid, v c!"foo_void_pure" tVoid true, v c!"foo_int" tInt, v c!"foo_sring" str, v c!"foo_sring_r" (.lref str), assign h c!"Base" 0, 
    defaultCtor h c!"Base" 0 c!"Base", copyCtor h c!"Base" 0 c!"Base"] with isAbstract := true },
  { record c!"<string>" c!"std::" c!"basic_string" [.method (method c!"<string>" c!"std::basic_string" 1 c!"begin" (.record 4) [])] with
      targs := some [⟨c!"char", .type tChar⟩, ⟨c!"std::char_traits<char>", .type (.record 2)⟩, ⟨c!"std::allocator<char>", .type (.record 3)⟩] },
  { record c!"<string>" c!"std::" c!"char_traits" [] with targs := some [⟨c!"char", .type tChar⟩] },
  { record c!"<memory>" c!"std::" c!"allocator" [] with targs := some [⟨c!"char", .type tChar⟩] },
  { record c!"<iterator>" c!"__gnu_cxx::" c!"__normal_iterator" [] with targs := some [⟨c!"char *", .type (.ptr tChar)⟩, ⟨c!"std::basic_string<char>", .type (.record 1)⟩] }]

def visits : List Visit := [.cls 0]

def E : Env := env { namespacesToBind := [c!""] } classes [] [c!"class Base", c!"class std::basic_string<char>"] [] [c!"std::string"]

/-- `/repo/test/T11.override.ref.cpp`. -/
def expected : List String :=
  ["// File: T11_override.cpp\n",
    "#include <T11.override.hpp> // Base\n",
    "#include <iterator> // __gnu_cxx::__normal_iterator\n",
    "#include <memory> // std::allocator\n",
    "#include <sstream> // __str__\n",
    "#include <string> // std::basic_string\n",
    "#include <string> // std::char_traits\n",
    "\n"] ++
   casters ++
   ["\n",
    "// Base file:T11.override.hpp line:\n",
    "struct PyCallBack_Base : public Base {\n",
    "\tusing Base::Base;\n",
    "\n",
    "\tvoid foo_void() override {\n",
    "\t\tpybind11::gil_scoped_acquire gil;\n",
    "\t\tpybind11::function overload = pybind11::get_overload(static_cast<const Base *>(this), \"foo_void\");\n",
    "\t\tif (overload) {\n",
    "\t\t\tauto o = overload.operator()<pybind11::return_value_policy::reference>();\n",
    "\t\t\tif (pybind11::detail::cast_is_temporary_value_reference<void>::value) {\n",
    "\t\t\t\tstatic pybind11::detail::override_caster_t<void> caster;\n",
    "\t\t\t\treturn pybind11::detail::cast_ref<void>(std::move(o), caster);\n",
    "\t\t\t}\n",
    "\t\t\treturn pybind11::detail::cast_safe<void>(std::move(o));\n",
    "\t\t}\n",
    "\t\treturn Base::foo_void();\n",
    "\t}\n",
    "\tvoid foo_void_pure() override {\n",
    "\t\tpybind11::gil_scoped_acquire gil;\n",
    "\t\tpybind11::function overload = pybind11::get_overload(static_cast<const Base *>(this), \"foo_void_pure\");\n",
    "\t\tif (overload) {\n",
    "\t\t\tauto o = overload.operator()<pybind11::return_value_policy::reference>();\n",
    "\t\t\tif (pybind11::detail::cast_is_temporary_value_reference<void>::value) {\n",
    "\t\t\t\tstatic pybind11::detail::override_caster_t<void> caster;\n",
    "\t\t\t\treturn pybind11::detail::cast_ref<void>(std::move(o), caster);\n",
    "\t\t\t}\n",
    "\t\t\treturn pybind11::detail::cast_safe<void>(std::move(o));\n",
    "\t\t}\n",
    "\t\tpybind11::pybind11_fail(\"Tried to call pure virtual function \\\"Base::foo_void_pure\\\"\");\n",
    "\t}\n",
    "\tint foo_int() override {\n",
    "\t\tpybind11::gil_scoped_acquire gil;\n",
    "\t\tpybind11::function overload = pybind11::get_overload(static_cast<const Base *>(this), \"foo_int\");\n",
    "\t\tif (overload) {\n",
    "\t\t\tauto o = overload.operator()<pybind11::return_value_policy::reference>();\n",
    "\t\t\tif (pybind11::detail::cast_is_temporary_value_reference<int>::value) {\n",
    "\t\t\t\tstatic pybind11::detail::override_caster_t<int> caster;\n",
    "\t\t\t\treturn pybind11::detail::cast_ref<int>(std::move(o), caster);\n",
    "\t\t\t}\n",
    "\t\t\treturn pybind11::detail::cast_safe<int>(std::move(o));\n",
    "\t\t}\n",
    "\t\treturn Base::foo_int();\n",
    "\t}\n",
    "\tstd::string foo_sring() override {\n",
    "\t\tpybind11::gil_scoped_acquire gil;\n",
    "\t\tpybind11::function overload = pybind11::get_overload(static_cast<const Base *>(this), \"foo_sring\");\n",
    "\t\tif (overload) {\n",
    "\t\t\tauto o = overload.operator()<pybind11::return_value_policy::reference>();\n",
    "\t\t\tif (pybind11::detail::cast_is_temporary_value_reference<std::string>::value) {\n",
    "\t\t\t\tstatic pybind11::detail::override_caster_t<std::string> caster;\n",
    "\t\t\t\treturn pybind11::detail::cast_ref<std::string>(std::move(o), caster);\n",
    "\t\t\t}\n",
    "\t\t\treturn pybind11::detail::cast_safe<std::string>(std::move(o));\n",
    "\t\t}\n",
    "\t\treturn Base::foo_sring();\n",
    "\t}\n",
    "\tstd::string & foo_sring_r() override {\n",
    "\t\tpybind11::gil_scoped_acquire gil;\n",
    "\t\tpybind11::function overload = pybind11::get_overload(static_cast<const Base *>(this), \"foo_sring_r\");\n",
    "\t\tif (overload) {\n",
    "\t\t\tauto o = overload.operator()<pybind11::return_value_policy::reference>();\n",
    "\t\t\tif (pybind11::detail::cast_is_temporary_value_reference<std::string &>::value) {\n",
    "\t\t\t\tstatic pybind11::detail::override_caster_t<std::string &> caster;\n",
    "\t\t\t\treturn pybind11::detail::cast_ref<std::string &>(std::move(o), caster);\n",
    "\t\t\t}\n",
    "\t\t\treturn pybind11::detail::cast_safe<std::string &>(std::move(o));\n",
    "\t\t}\n",
    "\t\treturn Base::foo_sring_r();\n",
    "\t}\n",
    "};\n",
    "\n",
    "void bind_T11_override(std::function< pybind11::module &(std::string const &namespace_) > &M)\n",
    "{\n",
    "\t{ // Base file:T11.override.hpp line:\n",
    "\t\tpybind11::class_<Base, std::shared_ptr<Base>, PyCallBack_Base> cl(M(\"\"), \"Base\", \"\");\n",
    "\t\tcl.def( pybind11::init( [](){ return new PyCallBack_Base(); } ) );\n",
    "\t\tcl.def(pybind11::init<PyCallBack_Base const &>());\n",
    "\t\tcl.def_readwrite(\"s_\", &Base::s_);\n",
    "\t\tcl.def(\"foo_void\", (void (Base::*)()) &Base::foo_void, \"C++: Base::foo_void() --> void\");\n",
    "\t\tcl.def(\"foo_void_pure\", (void (Base::*)()) &Base::foo_void_pure, \"C++: Base::foo_void_pure() --> void\");\n",
    "\t\tcl.def(\"foo_int\", (int (Base::*)()) &Base::foo_int, \"C++: Base::foo_int() --> int\");\n",
    "\t\tcl.def(\"foo_sring\", (std::string (Base::*)()) &Base::foo_sring, \"C++: Base::foo_sring() --> std::string\");\n",
    "\t\tcl.def(\"foo_sring_r\", (std::string & (Base::*)()) &Base::foo_sring_r, \"C++: Base::foo_sring_r() --> std::string &\", pybind11::return_value_policy::automatic);\n",
    "\t\tcl.def(\"assign\", (class Base & (Base::*)(const class Base &)) &Base::operator=, \"C++: Base::operator=(const class Base &) --> class Base &\", pybind11::return_value_policy::automatic, pybind11::arg(\"\"));\n",
    "\t}\n",
    "}\n",
    "\n",
    "\n"] ++
   moduleHead ++
   ["\n",
    "void bind_T11_override(std::function< pybind11::module &(std::string const &namespace_) > &M);\n",
    "\n",
    "\n",
    "PYBIND11_MODULE(T11_override, root_module) {\n",
    "\troot_module.doc() = \"T11_override module\";\n",
    "\n"] ++
   moduleMiddle ++
   moduleEnd ++
   ["\n",
    "\tbind_T11_override(M);\n",
    "\n",
    "}\n",
    "\n",
    "// Source list file: TEST/T11_override.sources\n",
    "// T11_override.cpp\n",
    "// T11_override.cpp\n",
    "\n",
    "// Modules list file: TEST/T11_override.modules\n",
    "// \n"]

#guard (output c!"T11_override" E visits).map String.ofList = some (String.join expected)

end Binder.Conform.T11
