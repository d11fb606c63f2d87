import Verif.Conform.Base

/-! # Conformance: `/repo/test/T71.module_local.hpp`, `+module_local_namespace` -/

namespace Binder.Conform.T71
open Binder Cxx

/-- The header as included. -/
def h := c!"<T71.module_local.hpp>"

def cfgText := c!"+module_local_namespace aaa"

def cfg : Config := match readConfig { namespacesToBind := [c!""] } cfgText with | .ok c => c | .error _ => {}

def classes : List Record := [record h c!"aaa::" c!"A" [.method (method h c!"aaa::A" 0 c!"foo" tVoid [])], record h c!"bbb::" c!"B" [.method (method h c!"bbb::B" 1 c!"foo" tVoid [])]]

def enums : List EnumD := [enumD h c!"aaa::" c!"E1" [(c!"E1_V0", c!"aaa::E1_V0"), (c!"E1_V1", c!"aaa::E1_V1")]]

def visits : List Visit := [.cls 0, .enm 0, .cls 1]

def E : Env := env cfg classes enums [c!"class aaa::A", c!"class bbb::B"] [] []

/-- `/repo/test/T71.module_local.ref.cpp`. -/
def expected : List String :=
  ["// File: T71_module_local.cpp\n",
    "#include <T71.module_local.hpp> // aaa::A\n",
    "#include <T71.module_local.hpp> // aaa::E1\n",
    "#include <sstream> // __str__\n",
    "\n"] ++
   casters ++
   ["\n",
    "void bind_T71_module_local(std::function< pybind11::module &(std::string const &namespace_) > &M)\n",
    "{\n",
    "\t{ // aaa::A file:T71.module_local.hpp line:\n",
    "\t\tpybind11::class_<aaa::A, std::shared_ptr<aaa::A>> cl(M(\"aaa\"), \"A\", \"\", pybind11::module_local());\n",
    "\t\tcl.def( pybind11::init( [](){ return new aaa::A(); } ) );\n",
    "\t\tcl.def(\"foo\", (void (aaa::A::*)()) &aaa::A::foo, \"C++: aaa::A::foo() --> void\");\n",
    "\t}\n",
    "\t// aaa::E1 file:T71.module_local.hpp line:\n",
    "\tpybind11::enum_<aaa::E1>(M(\"aaa\"), \"E1\", pybind11::arithmetic(), \"\", pybind11::module_local())\n",
    "\t\t.value(\"E1_V0\", aaa::E1_V0)\n",
    "\t\t.value(\"E1_V1\", aaa::E1_V1)\n",
    "\t\t.export_values();\n",
    "\n",
    ";\n",
    "\n",
    "}\n",
    "\n",
    "\n",
    "// File: T71_module_local_1.cpp\n",
    "#include <T71.module_local.hpp> // bbb::B\n",
    "#include <sstream> // __str__\n",
    "\n"] ++
   casters ++
   ["\n",
    "void bind_T71_module_local_1(std::function< pybind11::module &(std::string const &namespace_) > &M)\n",
    "{\n",
    "\t{ // bbb::B file:T71.module_local.hpp line:\n",
    "\t\tpybind11::class_<bbb::B, std::shared_ptr<bbb::B>> cl(M(\"bbb\"), \"B\", \"\");\n",
    "\t\tcl.def( pybind11::init( [](){ return new bbb::B(); } ) );\n",
    "\t\tcl.def(\"foo\", (void (bbb::B::*)()) &bbb::B::foo, \"C++: bbb::B::foo() --> void\");\n",
    "\t}\n",
    "}\n",
    "\n",
    "\n"] ++
   moduleHead ++
   ["\n",
    "void bind_T71_module_local(std::function< pybind11::module &(std::string const &namespace_) > &M);\n",
    "void bind_T71_module_local_1(std::function< pybind11::module &(std::string const &namespace_) > &M);\n",
    "\n",
    "\n",
    "PYBIND11_MODULE(T71_module_local, root_module) {\n",
    "\troot_module.doc() = \"T71_module_local module\";\n",
    "\n"] ++
   moduleMiddle ++
   ["\t\t{\"\", \"aaa\"},\n",
    "\t\t{\"\", \"bbb\"},\n"] ++
   moduleEnd ++
   ["\n",
    "\tbind_T71_module_local(M);\n",
    "\tbind_T71_module_local_1(M);\n",
    "\n",
    "}\n",
    "\n",
    "// Source list file: TEST/T71_module_local.sources\n",
    "// T71_module_local.cpp\n",
    "// T71_module_local.cpp\n",
    "// T71_module_local_1.cpp\n",
    "\n",
    "// Modules list file: TEST/T71_module_local.modules\n",
    "// aaa bbb \n"]

#guard (output c!"T71_module_local" E visits).map String.ofList = some (String.join expected)

end Binder.Conform.T71
