import Verif.Conform.Base

/-! # Conformance: `/repo/test/T15.copy.hpp`, copy and move constructors -/

namespace Binder.Conform.T15
open Binder Cxx

/-- The header as included. -/
def h := c!"<T15.copy.hpp>"

def nod (r : Record) : Record := {r with needsImplicitDefaultConstructor := false, hasDefaultConstructor := false}

def cc (n : Str) (i : Nat) := copyCtor h n i n

def mv (n : Str) (i : Nat) : Member := .method (ctor h n i n [⟨[], .rref (.record i), false⟩] (isMove := true))

def classes : List Record :=
 [record h [] c!"POD1" [], nod (record h [] c!"POD2" [cc c!"POD2" 1]), nod (record h [] c!"POD3" [cc c!"POD3" 2]), nod (record h [] c!"POD4" [field c!"POD4" c!"a" tInt, cc c!"POD4" 3]),
 nod (record h [] c!"POD5" [mv c!"POD5" 4]), nod (record h [] c!"POD6" [field c!"POD6" c!"a" tInt, mv c!"POD6" 5]), nod (record h [] c!"Data1" [cc c!"Data1" 6, field c!"Data1" c!"a" tInt .priv])]

def visits : List Visit := (List.range 7).map .cls

def E : Env := env { namespacesToBind := [c!""] } classes [] (classes.map (c!"struct " ++ ·.name)) [] []

/-- `/repo/test/T15.copy.ref.cpp`. -/
def expected : List String :=
  ["// File: T15_copy.cpp\n",
    "#include <T15.copy.hpp> // Data1\n",
    "#include <T15.copy.hpp> // POD1\n",
    "#include <T15.copy.hpp> // POD2\n",
    "#include <T15.copy.hpp> // POD3\n",
    "#include <T15.copy.hpp> // POD4\n",
    "#include <T15.copy.hpp> // POD5\n",
    "#include <T15.copy.hpp> // POD6\n",
    "#include <sstream> // __str__\n",
    "\n"] ++
   casters ++
   ["\n",
    "void bind_T15_copy(std::function< pybind11::module &(std::string const &namespace_) > &M)\n",
    "{\n",
    "\t{ // POD1 file:T15.copy.hpp line:\n",
    "\t\tpybind11::class_<POD1, std::shared_ptr<POD1>> cl(M(\"\"), \"POD1\", \"\");\n",
    "\t\tcl.def( pybind11::init( [](){ return new POD1(); } ) );\n",
    "\t}\n",
    "\t{ // POD2 file:T15.copy.hpp line:\n",
    "\t\tpybind11::class_<POD2, std::shared_ptr<POD2>> cl(M(\"\"), \"POD2\", \"\");\n",
    "\t\tcl.def( pybind11::init( [](POD2 const &o){ return new POD2(o); } ) );\n",
    "\t}\n",
    "\t{ // POD3 file:T15.copy.hpp line:\n",
    "\t\tpybind11::class_<POD3, std::shared_ptr<POD3>> cl(M(\"\"), \"POD3\", \"\");\n",
    "\t\tcl.def( pybind11::init( [](POD3 const &o){ return new POD3(o); } ) );\n",
    "\t}\n",
    "\t{ // POD4 file:T15.copy.hpp line:\n",
    "\t\tpybind11::class_<POD4, std::shared_ptr<POD4>> cl(M(\"\"), \"POD4\", \"\");\n",
    "\t\tcl.def( pybind11::init( [](POD4 const &o){ return new POD4(o); } ) );\n",
    "\t\tcl.def_readwrite(\"a\", &POD4::a);\n",
    "\t}\n",
    "\t{ // POD5 file:T15.copy.hpp line:\n",
    "\t\tpybind11::class_<POD5, std::shared_ptr<POD5>> cl(M(\"\"), \"POD5\", \"\");\n",
    "\t}\n",
    "\t{ // POD6 file:T15.copy.hpp line:\n",
    "\t\tpybind11::class_<POD6, std::shared_ptr<POD6>> cl(M(\"\"), \"POD6\", \"\");\n",
    "\t\tcl.def_readwrite(\"a\", &POD6::a);\n",
    "\t}\n",
    "\t{ // Data1 file:T15.copy.hpp line:\n",
    "\t\tpybind11::class_<Data1, std::shared_ptr<Data1>> cl(M(\"\"), \"Data1\", \"\");\n",
    "\t\tcl.def( pybind11::init( [](Data1 const &o){ return new Data1(o); } ) );\n",
    "\t}\n",
    "}\n",
    "\n",
    "\n"] ++
   moduleHead ++
   ["\n",
    "void bind_T15_copy(std::function< pybind11::module &(std::string const &namespace_) > &M);\n",
    "\n",
    "\n",
    "PYBIND11_MODULE(T15_copy, root_module) {\n",
    "\troot_module.doc() = \"T15_copy module\";\n",
    "\n"] ++
   moduleMiddle ++
   moduleEnd ++
   ["\n",
    "\tbind_T15_copy(M);\n",
    "\n",
    "}\n",
    "\n",
    "// Source list file: TEST/T15_copy.sources\n",
    "// T15_copy.cpp\n",
    "// T15_copy.cpp\n",
    "\n",
    "// Modules list file: TEST/T15_copy.modules\n",
    "// \n"]

#guard (output c!"T15_copy" E visits).map String.ofList = some (String.join expected)

end Binder.Conform.T15
