import Verif.Conform.Base

/-! # Conformance: `/repo/test/T08.constructor.hpp`, default constructors -/

namespace Binder.Conform.T08
open Binder Cxx

/-- The header as included. -/
def h := c!"<T08.constructor.hpp>"

def b (i : Nat) : List Base := [⟨.pub, false, some i⟩]

def nodef (r : Record) : Record := { r with needsImplicitDefaultConstructor := false, hasDefaultConstructor := false }

def ci (n : Str) (i : Nat) : Member := .method (ctor h n i n [⟨[], tInt, false⟩])

def delDef (r : Record) (i : Nat) : Record :=
  { r with members := r.members ++ [.method { ctor h r.name i r.name [] (isDefault := true) with isDeleted := true }], needsImplicitDefaultConstructor := false }

def classes : List Record := [record h [] c!"BaseA" [defaultCtor h c!"BaseA" 0 c!"BaseA"], record h [] c!"DerivedA" [] (b 0),
  nodef (record h [] c!"BaseB" [ci c!"BaseB" 2]), delDef (record h [] c!"DerivedB" [] (b 2)) 3,
  {record h [] c!"BaseC" [ci c!"BaseC" 4, .method (ctor h c!"BaseC" 4 c!"BaseC" [] .priv (isDefault := true))] with needsImplicitDefaultConstructor := false}, delDef (record h [] c!"DerivedC" [] (b 4)) 5,
  {record h [] c!"BaseD" [.method {ctor h c!"BaseD" 4 c!"BaseD" [] (isDefault := true) with isDeleted := true}, ci c!"BaseD" 6] with needsImplicitDefaultConstructor := false}, delDef (record h [] c!"DerivedD" [] (b 6)) 7]

def visits : List Visit := (List.range 8).map .cls

def E : Env := env { namespacesToBind := [c!""] } classes [] (classes.map (c!"class " ++ ·.name)) [] []

/-- `/repo/test/T08.constructor.ref.cpp`. -/
def expected : List String :=
  ["// File: T08_constructor.cpp\n",
    "#include <T08.constructor.hpp> // BaseA\n",
    "#include <T08.constructor.hpp> // BaseB\n",
    "#include <T08.constructor.hpp> // BaseC\n",
    "#include <T08.constructor.hpp> // BaseD\n",
    "#include <T08.constructor.hpp> // DerivedA\n",
    "#include <T08.constructor.hpp> // DerivedB\n",
    "#include <T08.constructor.hpp> // DerivedC\n",
    "#include <T08.constructor.hpp> // DerivedD\n",
    "#include <sstream> // __str__\n",
    "\n"] ++
   casters ++
   ["\n",
    "void bind_T08_constructor(std::function< pybind11::module &(std::string const &namespace_) > &M)\n",
    "{\n",
    "\t{ // BaseA file:T08.constructor.hpp line:\n",
    "\t\tpybind11::class_<BaseA, std::shared_ptr<BaseA>> cl(M(\"\"), \"BaseA\", \"\");\n",
    "\t\tcl.def( pybind11::init( [](){ return new BaseA(); } ) );\n",
    "\t}\n",
    "\t{ // DerivedA file:T08.constructor.hpp line:\n",
    "\t\tpybind11::class_<DerivedA, std::shared_ptr<DerivedA>, BaseA> cl(M(\"\"), \"DerivedA\", \"\");\n",
    "\t\tcl.def( pybind11::init( [](){ return new DerivedA(); } ) );\n",
    "\t}\n",
    "\t{ // BaseB file:T08.constructor.hpp line:\n",
    "\t\tpybind11::class_<BaseB, std::shared_ptr<BaseB>> cl(M(\"\"), \"BaseB\", \"\");\n",
    "\t\tcl.def( pybind11::init<int>(), pybind11::arg(\"\") );\n",
    "\n",
    "\t}\n",
    "\t{ // DerivedB file:T08.constructor.hpp line:\n",
    "\t\tpybind11::class_<DerivedB, std::shared_ptr<DerivedB>, BaseB> cl(M(\"\"), \"DerivedB\", \"\");\n",
    "\t}\n",
    "\t{ // BaseC file:T08.constructor.hpp line:\n",
    "\t\tpybind11::class_<BaseC, std::shared_ptr<BaseC>> cl(M(\"\"), \"BaseC\", \"\");\n",
    "\t\tcl.def( pybind11::init<int>(), pybind11::arg(\"\") );\n",
    "\n",
    "\t}\n",
    "\t{ // DerivedC file:T08.constructor.hpp line:\n",
    "\t\tpybind11::class_<DerivedC, std::shared_ptr<DerivedC>, BaseC> cl(M(\"\"), \"DerivedC\", \"\");\n",
    "\t}\n",
    "\t{ // BaseD file:T08.constructor.hpp line:\n",
    "\t\tpybind11::class_<BaseD, std::shared_ptr<BaseD>> cl(M(\"\"), \"BaseD\", \"\");\n",
    "\t\tcl.def( pybind11::init<int>(), pybind11::arg(\"\") );\n",
    "\n",
    "\t}\n",
    "\t{ // DerivedD file:T08.constructor.hpp line:\n",
    "\t\tpybind11::class_<DerivedD, std::shared_ptr<DerivedD>, BaseD> cl(M(\"\"), \"DerivedD\", \"\");\n",
    "\t}\n",
    "}\n",
    "\n",
    "\n"] ++
   moduleHead ++
   ["\n",
    "void bind_T08_constructor(std::function< pybind11::module &(std::string const &namespace_) > &M);\n",
    "\n",
    "\n",
    "PYBIND11_MODULE(T08_constructor, root_module) {\n",
    "\troot_module.doc() = \"T08_constructor module\";\n",
    "\n"] ++
   moduleMiddle ++
   moduleEnd ++
   ["\n",
    "\tbind_T08_constructor(M);\n",
    "\n",
    "}\n",
    "\n",
    "// Source list file: TEST/T08_constructor.sources\n",
    "// T08_constructor.cpp\n",
    "// T08_constructor.cpp\n",
    "\n",
    "// Modules list file: TEST/T08_constructor.modules\n",
    "// \n"]

#guard (output c!"T08_constructor" E visits).map String.ofList = some (String.join expected)

end Binder.Conform.T08
