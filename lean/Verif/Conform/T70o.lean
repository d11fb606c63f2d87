import Verif.Conform.Base

/-! # Conformance: `/repo/test/T70.options.hpp`, `+namespace`, `-namespace` and prefixes -/

namespace Binder.Conform.T70o
open Binder Cxx

/-- The header as included. -/
def h := c!"<T70.options.hpp>"

def cfgText := c!"+prefix_for_static_member_functions static_\n\n+namespace aaaa\n-namespace aaaa::bbbb\n\n+class aaaa::bbbb::BBBB\n+function aaaa::bbbb::foo_bbbb\n"

def cfg : Config := match readConfig { namespacesToBind := [c!""] } cfgText with | .ok c => c | .error _ => {}

def q : Str := c!"aaaa::"

def classes : List Record := [record h q c!"AAAA" [.method (method h c!"aaaa::AAAA" 0 c!"foo" tVoid []), .method (method h c!"aaaa::AAAA" 0 c!"foo" tVoid [⟨[], tInt, false⟩] (isStatic := true))],
  record h c!"aaaa::cccc::" c!"CCCC" [], record h c!"aaaa::bbbb::" c!"BBBB" [], record h c!"aaaa::bbbb::" c!"BBBB_not_binded" []]

def enums : List EnumD := [enumD h q c!"E1" [(c!"E1_V0", c!"aaaa::E1_V0"), (c!"E1_V1", c!"aaaa::E1_V1")]]

def visits : List Visit := [.cls 0, .fn (func h q c!"foo_aaaa" tVoid []), .enm 0, .cls 1, .fn (func h c!"aaaa::cccc::" c!"foo_CCCC" tVoid []), .cls 2, .fn (func h c!"aaaa::bbbb::" c!"foo_bbbb" tVoid []),
  .cls 3, .fn (func h c!"aaaa::bbbb::" c!"foo_bbbb_not_binded" tVoid [])]

def E : Env := env cfg classes enums (classes.map (c!"struct " ++ ·.qname)) [] []

/-- `/repo/test/T70.options.ref.cpp`. -/
def expected : List String :=
  ["// File: T70_options.cpp\n",
    "#include <T70.options.hpp> // aaaa::AAAA\n",
    "#include <T70.options.hpp> // aaaa::E1\n",
    "#include <T70.options.hpp> // aaaa::foo_aaaa\n",
    "#include <sstream> // __str__\n",
    "\n"] ++
   casters ++
   ["\n",
    "void bind_T70_options(std::function< pybind11::module &(std::string const &namespace_) > &M)\n",
    "{\n",
    "\t{ // aaaa::AAAA file:T70.options.hpp line:\n",
    "\t\tpybind11::class_<aaaa::AAAA, std::shared_ptr<aaaa::AAAA>> cl(M(\"aaaa\"), \"AAAA\", \"\");\n",
    "\t\tcl.def( pybind11::init( [](){ return new aaaa::AAAA(); } ) );\n",
    "\t\tcl.def(\"foo\", (void (aaaa::AAAA::*)()) &aaaa::AAAA::foo, \"C++: aaaa::AAAA::foo() --> void\");\n",
    "\t\tcl.def_static(\"static_foo\", (void (*)(int)) &aaaa::AAAA::foo, \"C++: aaaa::AAAA::foo(int) --> void\", pybind11::arg(\"\"));\n",
    "\t}\n",
    "\t// aaaa::foo_aaaa() file:T70.options.hpp line:\n",
    "\tM(\"aaaa\").def(\"foo_aaaa\", (void (*)()) &aaaa::foo_aaaa, \"C++: aaaa::foo_aaaa() --> void\");\n",
    "\n",
    "\t// aaaa::E1 file:T70.options.hpp line:\n",
    "\tpybind11::enum_<aaaa::E1>(M(\"aaaa\"), \"E1\", pybind11::arithmetic(), \"\")\n",
    "\t\t.value(\"E1_V0\", aaaa::E1_V0)\n",
    "\t\t.value(\"E1_V1\", aaaa::E1_V1)\n",
    "\t\t.export_values();\n",
    "\n",
    ";\n",
    "\n",
    "}\n",
    "\n",
    "\n",
    "// File: T70_options_1.cpp\n",
    "#include <T70.options.hpp> // aaaa::cccc::CCCC\n",
    "#include <T70.options.hpp> // aaaa::cccc::foo_CCCC\n",
    "#include <sstream> // __str__\n",
    "\n"] ++
   casters ++
   ["\n",
    "void bind_T70_options_1(std::function< pybind11::module &(std::string const &namespace_) > &M)\n",
    "{\n",
    "\t{ // aaaa::cccc::CCCC file:T70.options.hpp line:\n",
    "\t\tpybind11::class_<aaaa::cccc::CCCC, std::shared_ptr<aaaa::cccc::CCCC>> cl(M(\"aaaa::cccc\"), \"CCCC\", \"\");\n",
    "\t\tcl.def( pybind11::init( [](){ return new aaaa::cccc::CCCC(); } ) );\n",
    "\t}\n",
    "\t// aaaa::cccc::foo_CCCC() file:T70.options.hpp line:\n",
    "\tM(\"aaaa::cccc\").def(\"foo_CCCC\", (void (*)()) &aaaa::cccc::foo_CCCC, \"C++: aaaa::cccc::foo_CCCC() --> void\");\n",
    "\n",
    "}\n",
    "\n",
    "\n",
    "// File: T70_options_2.cpp\n",
    "#include <T70.options.hpp> // aaaa::bbbb::BBBB\n",
    "#include <T70.options.hpp> // aaaa::bbbb::foo_bbbb\n",
    "#include <sstream> // __str__\n",
    "\n"] ++
   casters ++
   ["\n",
    "void bind_T70_options_2(std::function< pybind11::module &(std::string const &namespace_) > &M)\n",
    "{\n",
    "\t{ // aaaa::bbbb::BBBB file:T70.options.hpp line:\n",
    "\t\tpybind11::class_<aaaa::bbbb::BBBB, std::shared_ptr<aaaa::bbbb::BBBB>> cl(M(\"aaaa::bbbb\"), \"BBBB\", \"\");\n",
    "\t\tcl.def( pybind11::init( [](){ return new aaaa::bbbb::BBBB(); } ) );\n",
    "\t}\n",
    "\t// aaaa::bbbb::foo_bbbb() file:T70.options.hpp line:\n",
    "\tM(\"aaaa::bbbb\").def(\"foo_bbbb\", (void (*)()) &aaaa::bbbb::foo_bbbb, \"C++: aaaa::bbbb::foo_bbbb() --> void\");\n",
    "\n",
    "}\n",
    "\n",
    "\n"] ++
   moduleHead ++
   ["\n",
    "void bind_T70_options(std::function< pybind11::module &(std::string const &namespace_) > &M);\n",
    "void bind_T70_options_1(std::function< pybind11::module &(std::string const &namespace_) > &M);\n",
    "void bind_T70_options_2(std::function< pybind11::module &(std::string const &namespace_) > &M);\n",
    "\n",
    "\n",
    "PYBIND11_MODULE(T70_options, root_module) {\n",
    "\troot_module.doc() = \"T70_options module\";\n",
    "\n"] ++
   moduleMiddle ++
   ["\t\t{\"\", \"aaaa\"},\n",
    "\t\t{\"aaaa\", \"bbbb\"},\n",
    "\t\t{\"aaaa\", \"cccc\"},\n"] ++
   moduleEnd ++
   ["\n",
    "\tbind_T70_options(M);\n",
    "\tbind_T70_options_1(M);\n",
    "\tbind_T70_options_2(M);\n",
    "\n",
    "}\n",
    "\n",
    "// Source list file: TEST/T70_options.sources\n",
    "// T70_options.cpp\n",
    "// T70_options.cpp\n",
    "// T70_options_1.cpp\n",
    "// T70_options_2.cpp\n",
    "\n",
    "// Modules list file: TEST/T70_options.modules\n",
    "// aaaa aaaa.bbbb aaaa.cccc \n"]

#guard (output c!"T70_options" E visits).map String.ofList = some (String.join expected)

end Binder.Conform.T70o
