import Verif.Conform.Base

/-! # Conformance: `/repo/test/T09.overload.hpp`, constructors of classes with virtual functions -/

namespace Binder.Conform.T09
open Binder Cxx

/-- The header as included. -/
def h := c!"<T09.overload.hpp>"

def ct (n : Str) (i : Nat) : Member := .method (ctor h n i n [⟨c!"a", tInt, true⟩] (isDefault := true))

def classes : List Record := [record h [] c!"A1" [ct c!"A1" 0], record h [] c!"A2" [ct c!"A2" 1, .method (method h c!"A2" 1 c!"f" tVoid [] (isVirtual := true)), assign h c!"A2" 1],
  { record h [] c!"A3" [ct c!"A3" 2, .method (method h c!"A3" 2 c!"f" tVoid [] (isVirtual := true) (isPure := true)), assign h c!"A3" 2] with isAbstract := true },
  { record h [] c!"A4" [ct c!"A4" 3, .method { method h c!"A4" 3 c!"operator=" tInt [⟨[], tInt, false⟩] (isVirtual := true) (isPure := true) with isOperator := true }, assign h c!"A4" 3] with isAbstract := true }]

def visits : List Visit := [.cls 0, .cls 1, .cls 2, .cls 3]

def E : Env := env { namespacesToBind := [c!""] } classes [] (classes.map (c!"struct " ++ ·.name)) [] []

/-- `/repo/test/T09.overload.ref.cpp`. -/
def expected : List String :=
  ["// File: T09_overload.cpp\n",
    "#include <T09.overload.hpp> // A1\n",
    "#include <T09.overload.hpp> // A2\n",
    "#include <T09.overload.hpp> // A3\n",
    "#include <T09.overload.hpp> // A4\n",
    "#include <sstream> // __str__\n",
    "\n"] ++
   casters ++
   ["\n",
    "// A2 file:T09.overload.hpp line:\n",
    "struct PyCallBack_A2 : public A2 {\n",
    "\tusing A2::A2;\n",
    "\n",
    "\tvoid f() override {\n",
    "\t\tpybind11::gil_scoped_acquire gil;\n",
    "\t\tpybind11::function overload = pybind11::get_overload(static_cast<const A2 *>(this), \"f\");\n",
    "\t\tif (overload) {\n",
    "\t\t\tauto o = overload.operator()<pybind11::return_value_policy::reference>();\n",
    "\t\t\tif (pybind11::detail::cast_is_temporary_value_reference<void>::value) {\n",
    "\t\t\t\tstatic pybind11::detail::override_caster_t<void> caster;\n",
    "\t\t\t\treturn pybind11::detail::cast_ref<void>(std::move(o), caster);\n",
    "\t\t\t}\n",
    "\t\t\treturn pybind11::detail::cast_safe<void>(std::move(o));\n",
    "\t\t}\n",
    "\t\treturn A2::f();\n",
    "\t}\n",
    "};\n",
    "\n",
    "// A3 file:T09.overload.hpp line:\n",
    "struct PyCallBack_A3 : public A3 {\n",
    "\tusing A3::A3;\n",
    "\n",
    "\tvoid f() override {\n",
    "\t\tpybind11::gil_scoped_acquire gil;\n",
    "\t\tpybind11::function overload = pybind11::get_overload(static_cast<const A3 *>(this), \"f\");\n",
    "\t\tif (overload) {\n",
    "\t\t\tauto o = overload.operator()<pybind11::return_value_policy::reference>();\n",
    "\t\t\tif (pybind11::detail::cast_is_temporary_value_reference<void>::value) {\n",
    "\t\t\t\tstatic pybind11::detail::override_caster_t<void> caster;\n",
    "\t\t\t\treturn pybind11::detail::cast_ref<void>(std::move(o), caster);\n",
    "\t\t\t}\n",
    "\t\t\treturn pybind11::detail::cast_safe<void>(std::move(o));\n",
    "\t\t}\n",
    "\t\tpybind11::pybind11_fail(\"Tried to call pure virtual function \\\"A3::f\\\"\");\n",
    "\t}\n",
    "};\n",
    "\n",
    "// A4 file:T09.overload.hpp line:\n",
    "struct PyCallBack_A4 : public A4 {\n",
    "\tusing A4::A4;\n",
    "\n",
    "\tint operator=(int a0) override {\n",
    "\t\tpybind11::gil_scoped_acquire gil;\n",
    "\t\tpybind11::function overload = pybind11::get_overload(static_cast<const A4 *>(this), \"assign\");\n",
    "\t\tif (overload) {\n",
    "\t\t\tauto o = overload.operator()<pybind11::return_value_policy::reference>(a0);\n",
    "\t\t\tif (pybind11::detail::cast_is_temporary_value_reference<int>::value) {\n",
    "\t\t\t\tstatic pybind11::detail::override_caster_t<int> caster;\n",
    "\t\t\t\treturn pybind11::detail::cast_ref<int>(std::move(o), caster);\n",
    "\t\t\t}\n",
    "\t\t\treturn pybind11::detail::cast_safe<int>(std::move(o));\n",
    "\t\t}\n",
    "\t\tpybind11::pybind11_fail(\"Tried to call pure virtual function \\\"A4::assign\\\"\");\n",
    "\t}\n",
    "};\n",
    "\n",
    "void bind_T09_overload(std::function< pybind11::module &(std::string const &namespace_) > &M)\n",
    "{\n",
    "\t{ // A1 file:T09.overload.hpp line:\n",
    "\t\tpybind11::class_<A1, std::shared_ptr<A1>> cl(M(\"\"), \"A1\", \"\");\n",
    "\t\tcl.def( pybind11::init( [](){ return new A1(); } ), \"doc\" );\n",
    "\t\tcl.def( pybind11::init<int>(), pybind11::arg(\"a\") );\n",
    "\n",
    "\t}\n",
    "\t{ // A2 file:T09.overload.hpp line:\n",
    "\t\tpybind11::class_<A2, std::shared_ptr<A2>, PyCallBack_A2> cl(M(\"\"), \"A2\", \"\");\n",
    "\t\tcl.def( pybind11::init( [](){ return new A2(); }, [](){ return new PyCallBack_A2(); } ), \"doc\");\n",
    "\t\tcl.def( pybind11::init<int>(), pybind11::arg(\"a\") );\n",
    "\n",
    "\t\tcl.def(\"f\", (void (A2::*)()) &A2::f, \"C++: A2::f() --> void\");\n",
    "\t\tcl.def(\"assign\", (struct A2 & (A2::*)(const struct A2 &)) &A2::operator=, \"C++: A2::operator=(const struct A2 &) --> struct A2 &\", pybind11::return_value_policy::automatic, pybind11::arg(\"\"));\n",
    "\t}\n",
    "\t{ // A3 file:T09.overload.hpp line:\n",
    "\t\tpybind11::class_<A3, std::shared_ptr<A3>, PyCallBack_A3> cl(M(\"\"), \"A3\", \"\");\n",
    "\t\tcl.def( pybind11::init( [](){ return new PyCallBack_A3(); } ), \"doc\");\n",
    "\t\tcl.def( pybind11::init<int>(), pybind11::arg(\"a\") );\n",
    "\n",
    "\t\tcl.def(\"f\", (void (A3::*)()) &A3::f, \"C++: A3::f() --> void\");\n",
    "\t\tcl.def(\"assign\", (struct A3 & (A3::*)(const struct A3 &)) &A3::operator=, \"C++: A3::operator=(const struct A3 &) --> struct A3 &\", pybind11::return_value_policy::automatic, pybind11::arg(\"\"));\n",
    "\t}\n",
    "\t{ // A4 file:T09.overload.hpp line:\n",
    "\t\tpybind11::class_<A4, std::shared_ptr<A4>, PyCallBack_A4> cl(M(\"\"), \"A4\", \"\");\n",
    "\t\tcl.def( pybind11::init( [](){ return new PyCallBack_A4(); } ), \"doc\");\n",
    "\t\tcl.def( pybind11::init<int>(), pybind11::arg(\"a\") );\n",
    "\n",
    "\t\tcl.def(\"assign\", (int (A4::*)(int)) &A4::operator=, \"C++: A4::operator=(int) --> int\", pybind11::arg(\"\"));\n",
    "\t\tcl.def(\"assign\", (struct A4 & (A4::*)(const struct A4 &)) &A4::operator=, \"C++: A4::operator=(const struct A4 &) --> struct A4 &\", pybind11::return_value_policy::automatic, pybind11::arg(\"\"));\n",
    "\t}\n",
    "}\n",
    "\n",
    "\n"] ++
   moduleHead ++
   ["\n",
    "void bind_T09_overload(std::function< pybind11::module &(std::string const &namespace_) > &M);\n",
    "\n",
    "\n",
    "PYBIND11_MODULE(T09_overload, root_module) {\n",
    "\troot_module.doc() = \"T09_overload module\";\n",
    "\n"] ++
   moduleMiddle ++
   moduleEnd ++
   ["\n",
    "\tbind_T09_overload(M);\n",
    "\n",
    "}\n",
    "\n",
    "// Source list file: TEST/T09_overload.sources\n",
    "// T09_overload.cpp\n",
    "// T09_overload.cpp\n",
    "\n",
    "// Modules list file: TEST/T09_overload.modules\n",
    "// \n"]

#guard (output c!"T09_overload" E visits).map String.ofList = some (String.join expected)

end Binder.Conform.T09
