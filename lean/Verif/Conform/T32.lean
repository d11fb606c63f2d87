import Verif.Conform.Base

/-! # Conformance: `/repo/test/T32.call_guard.hpp`, `+default_call_guard` -/

namespace Binder.Conform.T32
open Binder Cxx

/-- The header as included. -/
def h := c!"<T32.call_guard.hpp>"

def cfgText := c!"+default_call_guard pybind11::gil_scoped_release"

def cfg : Config := match readConfig { namespacesToBind := [c!""] } cfgText with | .ok c => c | .error _ => {}

def classes : List Record := [record h [] c!"Methods" [.method (method h c!"Methods" 0 c!"foo" tVoid [⟨[], tInt, false⟩])]]

def visits : List Visit := [.fn (func h [] c!"free" tVoid [⟨[], tInt, false⟩]), .cls 0]

def E : Env := env cfg classes [] [c!"struct Methods"] [] []

/-- `/repo/test/T32.call_guard.ref.cpp`. -/
def expected : List String :=
  ["// File: T32_call_guard.cpp\n",
    "#include <T32.call_guard.hpp> // Methods\n",
    "#include <T32.call_guard.hpp> // free\n",
    "#include <sstream> // __str__\n",
    "\n"] ++
   casters ++
   ["\n",
    "void bind_T32_call_guard(std::function< pybind11::module &(std::string const &namespace_) > &M)\n",
    "{\n",
    "\t// free(int) file:T32.call_guard.hpp line:\n",
    "\tM(\"\").def(\"free\", (void (*)(int)) &free, \"C++: free(int) --> void\", pybind11::arg(\"\"), pybind11::call_guard<pybind11::gil_scoped_release>());\n",
    "\n",
    "\t{ // Methods file:T32.call_guard.hpp line:\n",
    "\t\tpybind11::class_<Methods, std::shared_ptr<Methods>> cl(M(\"\"), \"Methods\", \"\");\n",
    "\t\tcl.def( pybind11::init( [](){ return new Methods(); } ) );\n",
    "\t\tcl.def(\"foo\", (void (Methods::*)(int)) &Methods::foo, \"C++: Methods::foo(int) --> void\", pybind11::arg(\"\"), pybind11::call_guard<pybind11::gil_scoped_release>());\n",
    "\t}\n",
    "}\n",
    "\n",
    "\n"] ++
   moduleHead ++
   ["\n",
    "void bind_T32_call_guard(std::function< pybind11::module &(std::string const &namespace_) > &M);\n",
    "\n",
    "\n",
    "PYBIND11_MODULE(T32_call_guard, root_module) {\n",
    "\troot_module.doc() = \"T32_call_guard module\";\n",
    "\n"] ++
   moduleMiddle ++
   moduleEnd ++
   ["\n",
    "\tbind_T32_call_guard(M);\n",
    "\n",
    "}\n",
    "\n",
    "// Source list file: TEST/T32_call_guard.sources\n",
    "// T32_call_guard.cpp\n",
    "// T32_call_guard.cpp\n",
    "\n",
    "// Modules list file: TEST/T32_call_guard.modules\n",
    "// \n"]

#guard (output c!"T32_call_guard" E visits).map String.ofList = some (String.join expected)

end Binder.Conform.T32
