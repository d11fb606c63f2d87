import Verif.Conform.Base

/-! # Conformance: `/repo/test/T15.inner_class.fwd.hpp`, nested classes declared ahead -/

namespace Binder.Conform.T15f
open Binder Cxx

/-- The header as included. -/
def h := c!"<T15.inner_class.fwd.hpp>"

def inner (o : Nat) (r : Record) : Record := { r with outer := some o, access := .pub }

def injected (name : Str) (qname : Str) (outer : Nat) : Record := { record h [] name with qname := qname ++ c!"::" ++ name, outer := some outer, access := .pub, isFirstDecl := false, isThisDefinition := false, definition := some outer }

def fwd (d : Nat) (r : Record) : Record := { inner 0 r with isThisDefinition := false, definition := some d, members := [] }

def redecl (r : Record) : Record := { inner 0 r with isFirstDecl := false }

def cm : Str := c!"binder/test/T15.inner_class.fwd.hpp\n \n\n  Binder self-test file. Tests for bindings of forward declared inner functions."

def classes : List Record :=
 [{ record h [] c!"outer" [.nested 1, .nested 2, .nested 4, .method (method h c!"outer" 0 c!"f" tVoid [⟨c!"i", .ptr (.record 1), false⟩, ⟨c!"i2", .ptr (.record 3), false⟩, ⟨c!"i3", .ptr (.record 5), false⟩]), .nested 3] with comment := cm },
  inner 0 (record h c!"outer::" c!"inner" [.nested 6, field c!"outer::inner" c!"a" tInt]),
  fwd 3 (record h c!"outer::" c!"inner2"),
  redecl (record h c!"outer::" c!"inner2" [.nested 7, field c!"outer::inner2" c!"b" tInt]),
  fwd 5 (record h c!"outer::" c!"inner3"),
  redecl (record h c!"outer::" c!"inner3" [.nested 8, field c!"outer::inner3" c!"c" tInt]),
  injected c!"inner" c!"outer::inner" 1, injected c!"inner2" c!"outer::inner2" 3, injected c!"inner3" c!"outer::inner3" 5]

def visits : List Visit := [.cls 0, .cls 1, .cls 2, .cls 4, .cls 3, .cls 5]

def E : Env := env { namespacesToBind := [c!""] } classes [] (classes.map (c!"struct " ++ ·.qname)) [] []

/-- `/repo/test/T15.inner_class.fwd.ref.cpp`. -/
def expected : List String :=
  ["// File: T15_inner_class_fwd.cpp\n",
    "#include <T15.inner_class.fwd.hpp> // outer\n",
    "#include <T15.inner_class.fwd.hpp> // outer::inner\n",
    "#include <T15.inner_class.fwd.hpp> // outer::inner2\n",
    "#include <sstream> // __str__\n",
    "\n"] ++
   casters ++
   ["\n",
    "void bind_T15_inner_class_fwd(std::function< pybind11::module &(std::string const &namespace_) > &M)\n",
    "{\n",
    "\t{ // outer file:T15.inner_class.fwd.hpp line:\n",
    "\t\tpybind11::class_<outer, std::shared_ptr<outer>> cl(M(\"\"), \"outer\", \"binder/test/T15.inner_class.fwd.hpp\\n \\n\\n  Binder self-test file. Tests for bindings of forward declared inner functions.\");\n",
    "\t\tcl.def( pybind11::init( [](){ return new outer(); } ) );\n",
    "\t\tcl.def(\"f\", (void (outer::*)(struct outer::inner *, struct outer::inner2 *, struct outer::inner3 *)) &outer::f, \"C++: outer::f(struct outer::inner *, struct outer::inner2 *, struct outer::inner3 *) --> void\", pybind11::arg(\"i\"), pybind11::arg(\"i2\"), pybind11::arg(\"i3\"));\n",
    "\n",
    "\t\t{ // outer::inner file:T15.inner_class.fwd.hpp line:\n",
    "\t\t\tauto & enclosing_class = cl;\n",
    "\t\t\tpybind11::class_<outer::inner, std::shared_ptr<outer::inner>> cl(enclosing_class, \"inner\", \"\");\n",
    "\t\t\tcl.def( pybind11::init( [](){ return new outer::inner(); } ) );\n",
    "\t\t\tcl.def_readwrite(\"a\", &outer::inner::a);\n",
    "\t\t}\n",
    "\n",
    "\t\t{ // outer::inner2 file:T15.inner_class.fwd.hpp line:\n",
    "\t\t\tauto & enclosing_class = cl;\n",
    "\t\t\tpybind11::class_<outer::inner2, std::shared_ptr<outer::inner2>> cl(enclosing_class, \"inner2\", \"\");\n",
    "\t\t\tcl.def( pybind11::init( [](){ return new outer::inner2(); } ) );\n",
    "\t\t\tcl.def_readwrite(\"b\", &outer::inner2::b);\n",
    "\t\t}\n",
    "\n",
    "\t\t{ // outer::inner3 file:T15.inner_class.fwd.hpp line:\n",
    "\t\t\tauto & enclosing_class = cl;\n",
    "\t\t\tpybind11::class_<outer::inner3, std::shared_ptr<outer::inner3>> cl(enclosing_class, \"inner3\", \"\");\n",
    "\t\t\tcl.def( pybind11::init( [](){ return new outer::inner3(); } ) );\n",
    "\t\t\tcl.def_readwrite(\"c\", &outer::inner3::c);\n",
    "\t\t}\n",
    "\n",
    "\t}\n",
    "}\n",
    "\n",
    "\n"] ++
   moduleHead ++
   ["\n",
    "void bind_T15_inner_class_fwd(std::function< pybind11::module &(std::string const &namespace_) > &M);\n",
    "\n",
    "\n",
    "PYBIND11_MODULE(T15_inner_class_fwd, root_module) {\n",
    "\troot_module.doc() = \"T15_inner_class_fwd module\";\n",
    "\n"] ++
   moduleMiddle ++
   moduleEnd ++
   ["\n",
    "\tbind_T15_inner_class_fwd(M);\n",
    "\n",
    "}\n",
    "\n",
    "// Source list file: TEST/T15_inner_class_fwd.sources\n",
    "// T15_inner_class_fwd.cpp\n",
    "// T15_inner_class_fwd.cpp\n",
    "\n",
    "// Modules list file: TEST/T15_inner_class_fwd.modules\n",
    "// \n"]

#guard (output c!"T15_inner_class_fwd" E visits).map String.ofList = some (String.join expected)

end Binder.Conform.T15f
