import Verif.Conform.Base

/-! # Conformance: `/repo/test/T50.add_on_binder.hpp`, `+add_on_binder` -/

namespace Binder.Conform.T50a
open Binder Cxx

/-- The header as included. -/
def h := c!"<T50.add_on_binder.hpp>"

def cfgText := c!"+add_on_binder Matrix details::matrix_add_on_binder\n"

def cfg : Config := match readConfig { namespacesToBind := [c!""] } cfgText with | .ok c => c | .error _ => {}

def classes : List Record := [{ record h [] c!"Matrix" [] with targs := some [⟨c!"int", .type tInt⟩], hasInstantiationPoint := true }]

def visits : List Visit := [.cls 0]

def E : Env := env cfg classes [] [c!"struct Matrix<int>"] [] []

/-- `/repo/test/T50.add_on_binder.ref.cpp`. -/
def expected : List String :=
  ["// File: T50_add_on_binder.cpp\n",
    "#include <T50.add_on_binder.hpp> // Matrix\n",
    "#include <sstream> // __str__\n",
    "\n"] ++
   casters ++
   ["\n",
    "void bind_T50_add_on_binder(std::function< pybind11::module &(std::string const &namespace_) > &M)\n",
    "{\n",
    "\t{ // Matrix file:T50.add_on_binder.hpp line:\n",
    "\t\tpybind11::class_<Matrix<int>, std::shared_ptr<Matrix<int>>> cl(M(\"\"), \"Matrix_int_t\", \"\");\n",
    "\t\tcl.def( pybind11::init( [](){ return new Matrix<int>(); } ) );\n",
    "\n",
    "\t\tdetails::matrix_add_on_binder(cl);\n",
    "\t}\n",
    "}\n",
    "\n",
    "\n"] ++
   moduleHead ++
   ["\n",
    "void bind_T50_add_on_binder(std::function< pybind11::module &(std::string const &namespace_) > &M);\n",
    "\n",
    "\n",
    "PYBIND11_MODULE(T50_add_on_binder, root_module) {\n",
    "\troot_module.doc() = \"T50_add_on_binder module\";\n",
    "\n"] ++
   moduleMiddle ++
   moduleEnd ++
   ["\n",
    "\tbind_T50_add_on_binder(M);\n",
    "\n",
    "}\n",
    "\n",
    "// Source list file: TEST/T50_add_on_binder.sources\n",
    "// T50_add_on_binder.cpp\n",
    "// T50_add_on_binder.cpp\n",
    "\n",
    "// Modules list file: TEST/T50_add_on_binder.modules\n",
    "// \n"]

#guard (output c!"T50_add_on_binder" E visits).map String.ofList = some (String.join expected)

end Binder.Conform.T50a
