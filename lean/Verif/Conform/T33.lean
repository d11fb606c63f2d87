import Verif.Conform.Base

/-! # Conformance: `/repo/test/T33.buffer_protocol.hpp`, `+buffer_protocol` -/

namespace Binder.Conform.T33
open Binder Cxx

/-- The header as included. -/
def h := c!"<T33.buffer_protocol.hpp>"

def cfgText := c!"+buffer_protocol A\n"

def cfg : Config := match readConfig { namespacesToBind := [c!""] } cfgText with | .ok c => c | .error _ => {}

def classes : List Record := [record h [] c!"A" []]

def visits : List Visit := [.cls 0]

def E : Env := env cfg classes [] [c!"struct A"] [] []

/-- `/repo/test/T33.buffer_protocol.ref.cpp`. -/
def expected : List String :=
  ["// File: T33_buffer_protocol.cpp\n",
    "#include <T33.buffer_protocol.hpp> // A\n",
    "#include <sstream> // __str__\n",
    "\n"] ++
   casters ++
   ["\n",
    "void bind_T33_buffer_protocol(std::function< pybind11::module &(std::string const &namespace_) > &M)\n",
    "{\n",
    "\t{ // A file:T33.buffer_protocol.hpp line:\n",
    "\t\tpybind11::class_<A, std::shared_ptr<A>> cl(M(\"\"), \"A\", \"\", pybind11::buffer_protocol());\n",
    "\t\tcl.def( pybind11::init( [](){ return new A(); } ) );\n",
    "\t}\n",
    "}\n",
    "\n",
    "\n"] ++
   moduleHead ++
   ["\n",
    "void bind_T33_buffer_protocol(std::function< pybind11::module &(std::string const &namespace_) > &M);\n",
    "\n",
    "\n",
    "PYBIND11_MODULE(T33_buffer_protocol, root_module) {\n",
    "\troot_module.doc() = \"T33_buffer_protocol module\";\n",
    "\n"] ++
   moduleMiddle ++
   moduleEnd ++
   ["\n",
    "\tbind_T33_buffer_protocol(M);\n",
    "\n",
    "}\n",
    "\n",
    "// Source list file: TEST/T33_buffer_protocol.sources\n",
    "// T33_buffer_protocol.cpp\n",
    "// T33_buffer_protocol.cpp\n",
    "\n",
    "// Modules list file: TEST/T33_buffer_protocol.modules\n",
    "// \n"]

#guard (output c!"T33_buffer_protocol" E visits).map String.ofList = some (String.join expected)

end Binder.Conform.T33
