import Verif.Conform.Base

/-! # Conformance: `/repo/test/T80.custom_trampoline.hpp`, custom trampolines -/

namespace Binder.Conform.T80
open Binder Cxx

/-- The header as included. -/
def h := c!"<T80.custom_trampoline.hpp>"

def cfgText := c!"+include_for_class aaa::A <T80.custom_trampoline.include>\n+trampoline_member_function_binder aaa::A::foo myFoo"

def cfg : Config := match readConfig { namespacesToBind := [c!""] } cfgText with | .ok c => c | .error _ => {}

def q : Str := c!"aaa::A<double>"

def classes : List Record := [{ record h c!"aaa::" c!"A" [.method (method h q 0 c!"foo" (.record 0) [] (isVirtual := true)), assign h q 0, defaultCtor h q 0 c!"A", copyCtor h q 0 c!"A"] with
  targs := some [⟨c!"double", .type tDouble⟩], hasInstantiationPoint := true }]

def visits : List Visit := [.cls 0]

def E : Env := env cfg classes [] [c!"class aaa::A<double>"] [] []

/-- `/repo/test/T80.custom_trampoline.ref.cpp`. -/
def expected : List String :=
  ["// File: T80_custom_trampoline.cpp\n",
    "#include <T80.custom_trampoline.hpp> // aaa::A\n",
    "#include <T80.custom_trampoline.include> // +include_for_class\n",
    "#include <sstream> // __str__\n",
    "\n"] ++
   casters ++
   ["\n",
    "// aaa::A file:T80.custom_trampoline.hpp line:\n",
    "struct PyCallBack_aaa_A_double_t : public aaa::A<double> {\n",
    "\tusing aaa::A<double>::A;\n",
    "\n",
    "\tclass aaa::A<double> foo() override {\n",
    "\t\treturn myFoo<A,PyCallBack_aaa_A_double_t>(this, \"aaa::A<double>\", \"foo\");\n",
    "\t}\n",
    "};\n",
    "\n",
    "void bind_T80_custom_trampoline(std::function< pybind11::module &(std::string const &namespace_) > &M)\n",
    "{\n",
    "\t{ // aaa::A file:T80.custom_trampoline.hpp line:\n",
    "\t\tpybind11::class_<aaa::A<double>, std::shared_ptr<aaa::A<double>>, PyCallBack_aaa_A_double_t> cl(M(\"aaa\"), \"A_double_t\", \"\");\n",
    "\t\tcl.def( pybind11::init( [](){ return new aaa::A<double>(); }, [](){ return new PyCallBack_aaa_A_double_t(); } ) );\n",
    "\t\tcl.def( pybind11::init( [](PyCallBack_aaa_A_double_t const &o){ return new PyCallBack_aaa_A_double_t(o); } ) );\n",
    "\t\tcl.def( pybind11::init( [](aaa::A<double> const &o){ return new aaa::A<double>(o); } ) );\n",
    "\t\tcl.def(\"foo\", (class aaa::A<double> (aaa::A<double>::*)()) &aaa::A<double>::foo, \"C++: aaa::A<double>::foo() --> class aaa::A<double>\");\n",
    "\t\tcl.def(\"assign\", (class aaa::A<double> & (aaa::A<double>::*)(const class aaa::A<double> &)) &aaa::A<double>::operator=, \"C++: aaa::A<double>::operator=(const class aaa::A<double> &) --> class aaa::A<double> &\", pybind11::return_value_policy::automatic, pybind11::arg(\"\"));\n",
    "\t}\n",
    "}\n",
    "\n",
    "\n"] ++
   moduleHead ++
   ["\n",
    "void bind_T80_custom_trampoline(std::function< pybind11::module &(std::string const &namespace_) > &M);\n",
    "\n",
    "\n",
    "PYBIND11_MODULE(T80_custom_trampoline, root_module) {\n",
    "\troot_module.doc() = \"T80_custom_trampoline module\";\n",
    "\n"] ++
   moduleMiddle ++
   ["\t\t{\"\", \"aaa\"},\n"] ++
   moduleEnd ++
   ["\n",
    "\tbind_T80_custom_trampoline(M);\n",
    "\n",
    "}\n",
    "\n",
    "// Source list file: TEST/T80_custom_trampoline.sources\n",
    "// T80_custom_trampoline.cpp\n",
    "// T80_custom_trampoline.cpp\n",
    "\n",
    "// Modules list file: TEST/T80_custom_trampoline.modules\n",
    "// aaa \n"]

#guard (output c!"T80_custom_trampoline" E visits).map String.ofList = some (String.join expected)

end Binder.Conform.T80
