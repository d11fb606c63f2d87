import Verif.Conform.Base

/-! # Conformance: `/repo/test/T17.anonymous.hpp`, anonymous structures and namespaces -/

namespace Binder.Conform.T17
open Binder Cxx

/-- The header as included. -/
def h := c!"<T17.anonymous.hpp>"

def inner (o : Nat) (r : Record) : Record := { r with outer := some o, access := .pub }

def anon (o : Nat) (n : Str) (isA : Bool) (ms : List Member) : Record := { inner o (record h [] [] ms) with qname := n, hasNameForLinkage := false, isAnonymous := isA }

def injected (name : Str) (qname : Str) (outer : Nat) : Record := { record h [] name with qname := qname ++ c!"::" ++ name, outer := some outer, access := .pub, isFirstDecl := false, isThisDefinition := false, definition := some outer }

def classes : List Record :=
 [record h [] c!"S" [field c!"S" c!"a" tInt, .nested 1, .field ⟨[], c!"S::", .record 1, .pub, true⟩, .nested 2, .other, field c!"S" c!"fl" (.sugar 0 (.record 2)), .nested 3, field c!"S" c!"B_not_binded" (.arr (.record 3)), .nested 4,
    field c!"S" c!"C_not_binded" (.record 4), .nested 5, .other],
  anon 0 c!"S::(anonymous)" true [field c!"S::(anonymous)" c!"b" tInt],
  { anon 0 c!"S::FL_not_binded" false [field c!"S::FL_not_binded" c!"c_not_binded" tFloat] with hasNameForLinkage := true, qname := c!"S::(anonymous)" },
  anon 0 c!"S::(anonymous)" false [field c!"S::(anonymous)" c!"b4" tFloat],
  anon 0 c!"S::(anonymous)" false [field c!"S::(anonymous)" c!"c" tInt],
  inner 0 (record h c!"S::" c!"_D" [.nested 10, field c!"S::_D" c!"d" tInt]),
  record h [] c!"_S2" [field c!"_S2" c!"a" tInt],
  record h [] c!"Anonymous" [.nested 8, .field ⟨[], c!"Anonymous::", .record 8, .pub, true⟩],
  anon 7 c!"Anonymous::(anonymous)" true [field c!"Anonymous::(anonymous)" c!"coord" (.arr tDouble), .nested 9, .field ⟨[], c!"Anonymous::(anonymous union)::", .record 9, .pub, true⟩],
  anon 8 c!"Anonymous::(anonymous union)::(anonymous)" true [field c!"Anonymous::(anonymous union)::(anonymous)" c!"x" tDouble, field c!"Anonymous::(anonymous union)::(anonymous)" c!"y" tDouble],
  injected c!"_D" c!"S::_D" 5,
  { record h [] [] [field c!"(anonymous)" c!"a" tInt] with qname := c!"(anonymous)", hasNameForLinkage := false },
  { record h c!"(anonymous namespace)::" c!"S_not_binded" [] with inAnonymousNamespace := true }]

def visits : List Visit := [.fn (func h c!"(anonymous namespace)::" c!"foo_not_binded" tVoid []), .cls 12, .cls 11, .fn (func h [] c!"foo" tVoid []), .cls 0, .cls 1, .cls 2, .cls 3, .cls 4, .cls 5, .cls 6, .cls 7, .cls 8, .cls 9]

def E : Env := env { namespacesToBind := [c!""] } classes [] (classes.map (c!"struct " ++ ·.qname)) [] [c!"FL_not_binded"]

/-- `/repo/test/T17.anonymous.ref.cpp`. -/
def expected : List String :=
  ["// File: T17_anonymous.cpp\n",
    "#include <T17.anonymous.hpp> // Anonymous\n",
    "#include <T17.anonymous.hpp> // Anonymous::(anonymous)\n",
    "#include <T17.anonymous.hpp> // S\n",
    "#include <T17.anonymous.hpp> // S::_D\n",
    "#include <T17.anonymous.hpp> // _S2\n",
    "#include <T17.anonymous.hpp> // foo\n",
    "#include <sstream> // __str__\n",
    "\n"] ++
   casters ++
   ["\n",
    "void bind_T17_anonymous(std::function< pybind11::module &(std::string const &namespace_) > &M)\n",
    "{\n",
    "\t// foo() file:T17.anonymous.hpp line:\n",
    "\tM(\"\").def(\"foo\", (void (*)()) &foo, \"C++: foo() --> void\");\n",
    "\n",
    "\t{ // S file:T17.anonymous.hpp line:\n",
    "\t\tpybind11::class_<S, std::shared_ptr<S>> cl(M(\"\"), \"S\", \"\");\n",
    "\t\tcl.def( pybind11::init( [](){ return new S(); } ) );\n",
    "\t\tcl.def_readwrite(\"a\", &S::a);\n",
    "\n",
    "\t\t{ // S::(anonymous) file:T17.anonymous.hpp line:\n",
    "\t\t\tcl.def_readwrite(\"b\", &S::b);\n",
    "\t\t}\n",
    "\n",
    "\t\t{ // S::_D file:T17.anonymous.hpp line:\n",
    "\t\t\tauto & enclosing_class = cl;\n",
    "\t\t\tpybind11::class_<S::_D, std::shared_ptr<S::_D>> cl(enclosing_class, \"_D\", \"\");\n",
    "\t\t\tcl.def( pybind11::init( [](){ return new S::_D(); } ) );\n",
    "\t\t\tcl.def_readwrite(\"d\", &S::_D::d);\n",
    "\t\t}\n",
    "\n",
    "\t}\n",
    "\t{ // _S2 file:T17.anonymous.hpp line:\n",
    "\t\tpybind11::class_<_S2, std::shared_ptr<_S2>> cl(M(\"\"), \"_S2\", \"\");\n",
    "\t\tcl.def( pybind11::init( [](){ return new _S2(); } ) );\n",
    "\t\tcl.def_readwrite(\"a\", &_S2::a);\n",
    "\t}\n",
    "\t{ // Anonymous file:T17.anonymous.hpp line:\n",
    "\t\tpybind11::class_<Anonymous, std::shared_ptr<Anonymous>> cl(M(\"\"), \"Anonymous\", \"\");\n",
    "\t\tcl.def( pybind11::init( [](){ return new Anonymous(); } ) );\n",
    "\n",
    "\t\t{ // Anonymous::(anonymous) file:T17.anonymous.hpp line:\n",
    "\n",
    "\t\t\t{ // Anonymous::(anonymous union)::(anonymous) file:T17.anonymous.hpp line:\n",
    "\t\t\t\tcl.def_readwrite(\"x\", &Anonymous::x);\n",
    "\t\t\t\tcl.def_readwrite(\"y\", &Anonymous::y);\n",
    "\t\t\t}\n",
    "\n",
    "\t\t}\n",
    "\n",
    "\t}\n",
    "}\n",
    "\n",
    "\n"] ++
   moduleHead ++
   ["\n",
    "void bind_T17_anonymous(std::function< pybind11::module &(std::string const &namespace_) > &M);\n",
    "\n",
    "\n",
    "PYBIND11_MODULE(T17_anonymous, root_module) {\n",
    "\troot_module.doc() = \"T17_anonymous module\";\n",
    "\n"] ++
   moduleMiddle ++
   moduleEnd ++
   ["\n",
    "\tbind_T17_anonymous(M);\n",
    "\n",
    "}\n",
    "\n",
    "// Source list file: TEST/T17_anonymous.sources\n",
    "// T17_anonymous.cpp\n",
    "// T17_anonymous.cpp\n",
    "\n",
    "// Modules list file: TEST/T17_anonymous.modules\n",
    "// \n"]

#guard (output c!"T17_anonymous" E visits).map String.ofList = some (String.join expected)

end Binder.Conform.T17
