import Verif.Conform.Base

/-! # Conformance: `/repo/test/T05.default.hpp`, default arguments -/

namespace Binder.Conform.T05
open Binder Cxx

/-- The header as included. -/
def h := c!"<T05.default.hpp>"

def A : Ty := .record 0

def recA : Record := record h [] c!"A" [defaultCtor h c!"A" 0 c!"A", copyCtor h c!"A" 0 c!"A"]

def three (c : Bool) : List Param := [⟨c!"i", if c then .const tInt else tInt, true⟩, ⟨c!"f", tFloat, true⟩, ⟨c!"d", tDouble, true⟩]

def recB : Record := record h [] c!"B"
  [.method (ctor h c!"B" 1 c!"B" [⟨c!"a", .const tInt, true⟩, ⟨c!"b", tFloat, true⟩, ⟨c!"a2", .lref A, true⟩, ⟨c!"a3", .ptr A, true⟩, ⟨c!"i", tInt, true⟩] (isDefault := true)),
   .method (method h c!"B" 1 c!"foo" tVoid [⟨c!"a1", A, true⟩, ⟨c!"a2", .lref A, true⟩, ⟨c!"a3", .ptr A, true⟩, ⟨c!"i", tInt, true⟩]),
   .method (method h c!"B" 1 c!"foo_member" tDouble (three true)),
   .method (method h c!"B" 1 c!"foo_member_const" tDouble (three false) (isConst := true)),
   .method (method h c!"B" 1 c!"foo_static" tDouble (three false) (isStatic := true))]

def ft : Ty := .sugar 0 (.fn tVoid [])

def ff (n : Str) (t : Ty) : Visit := .fn (func h [] n tVoid [⟨c!"f", t, false⟩, ⟨c!"a", tInt, true⟩, ⟨c!"b", tFloat, true⟩])

def visits : List Visit :=
  [.fn (func h [] c!"foo" tDouble [⟨c!"a", tInt, false⟩, ⟨c!"i1", tInt, true⟩, ⟨c!"i2", .lref tInt, true⟩, ⟨c!"f", tFloat, true⟩, ⟨c!"d", .lref (.const tDouble), true⟩, ⟨c!"p", .ptr tVoid, true⟩, ⟨c!"q", tInt, true⟩]),
   .cls 0, .cls 1, ff c!"foo_f0" ft, ff c!"foo_f1" (.lref ft), ff c!"foo_f2_not_binded" (.ptr ft)]

def E : Env := env { namespacesToBind := [c!""] } [recA, recB] [] [c!"struct A", c!"struct B"] [] [c!"function_type"]

/-- `/repo/test/T05.default.ref.cpp`. -/
def expected : List String :=
  ["// File: T05_default.cpp\n",
    "#include <T05.default.hpp> // A\n",
    "#include <T05.default.hpp> // B\n",
    "#include <T05.default.hpp> // foo\n",
    "#include <T05.default.hpp> // foo_f0\n",
    "#include <T05.default.hpp> // foo_f1\n",
    "#include <sstream> // __str__\n",
    "\n"] ++
   casters ++
   ["\n",
    "void bind_T05_default(std::function< pybind11::module &(std::string const &namespace_) > &M)\n",
    "{\n",
    "\t// foo(int, int, int &, float, const double &, void *, int) file:T05.default.hpp line:\n",
    "\tM(\"\").def(\"foo\", [](int const & a0) -> double { return foo(a0); }, \"\", pybind11::arg(\"a\"));\n",
    "\tM(\"\").def(\"foo\", [](int const & a0, int const & a1) -> double { return foo(a0, a1); }, \"\", pybind11::arg(\"a\"), pybind11::arg(\"i1\"));\n",
    "\tM(\"\").def(\"foo\", [](int const & a0, int const & a1, int & a2) -> double { return foo(a0, a1, a2); }, \"\", pybind11::arg(\"a\"), pybind11::arg(\"i1\"), pybind11::arg(\"i2\"));\n",
    "\tM(\"\").def(\"foo\", [](int const & a0, int const & a1, int & a2, float const & a3) -> double { return foo(a0, a1, a2, a3); }, \"\", pybind11::arg(\"a\"), pybind11::arg(\"i1\"), pybind11::arg(\"i2\"), pybind11::arg(\"f\"));\n",
    "\tM(\"\").def(\"foo\", [](int const & a0, int const & a1, int & a2, float const & a3, const double & a4) -> double { return foo(a0, a1, a2, a3, a4); }, \"\", pybind11::arg(\"a\"), pybind11::arg(\"i1\"), pybind11::arg(\"i2\"), pybind11::arg(\"f\"), pybind11::arg(\"d\"));\n",
    "\tM(\"\").def(\"foo\", [](int const & a0, int const & a1, int & a2, float const & a3, const double & a4, void * a5) -> double { return foo(a0, a1, a2, a3, a4, a5); }, \"\", pybind11::arg(\"a\"), pybind11::arg(\"i1\"), pybind11::arg(\"i2\"), pybind11::arg(\"f\"), pybind11::arg(\"d\"), pybind11::arg(\"p\"));\n",
    "\tM(\"\").def(\"foo\", (double (*)(int, int, int &, float, const double &, void *, int)) &foo, \"C++: foo(int, int, int &, float, const double &, void *, int) --> double\", pybind11::arg(\"a\"), pybind11::arg(\"i1\"), pybind11::arg(\"i2\"), pybind11::arg(\"f\"), pybind11::arg(\"d\"), pybind11::arg(\"p\"), pybind11::arg(\"q\"));\n",
    "\n",
    "\t{ // A file:T05.default.hpp line:\n",
    "\t\tpybind11::class_<A, std::shared_ptr<A>> cl(M(\"\"), \"A\", \"\");\n",
    "\t\tcl.def( pybind11::init( [](){ return new A(); } ) );\n",
    "\t\tcl.def( pybind11::init( [](A const &o){ return new A(o); } ) );\n",
    "\t}\n",
    "\t{ // B file:T05.default.hpp line:\n",
    "\t\tpybind11::class_<B, std::shared_ptr<B>> cl(M(\"\"), \"B\", \"\");\n",
    "\t\tcl.def( pybind11::init( [](){ return new B(); } ), \"doc\" );\n",
    "\t\tcl.def( pybind11::init( [](const int & a0){ return new B(a0); } ), \"doc\" , pybind11::arg(\"a\"));\n",
    "\t\tcl.def( pybind11::init( [](const int & a0, float const & a1){ return new B(a0, a1); } ), \"doc\" , pybind11::arg(\"a\"), pybind11::arg(\"b\"));\n",
    "\t\tcl.def( pybind11::init( [](const int & a0, float const & a1, struct A & a2){ return new B(a0, a1, a2); } ), \"doc\" , pybind11::arg(\"a\"), pybind11::arg(\"b\"), pybind11::arg(\"a2\"));\n",
    "\t\tcl.def( pybind11::init( [](const int & a0, float const & a1, struct A & a2, struct A * a3){ return new B(a0, a1, a2, a3); } ), \"doc\" , pybind11::arg(\"a\"), pybind11::arg(\"b\"), pybind11::arg(\"a2\"), pybind11::arg(\"a3\"));\n",
    "\t\tcl.def( pybind11::init<const int, float, struct A &, struct A *, int>(), pybind11::arg(\"a\"), pybind11::arg(\"b\"), pybind11::arg(\"a2\"), pybind11::arg(\"a3\"), pybind11::arg(\"i\") );\n",
    "\n",
    "\t\tcl.def(\"foo\", [](B &o) -> void { return o.foo(); }, \"\");\n",
    "\t\tcl.def(\"foo\", [](B &o, struct A const & a0) -> void { return o.foo(a0); }, \"\", pybind11::arg(\"a1\"));\n",
    "\t\tcl.def(\"foo\", [](B &o, struct A const & a0, struct A & a1) -> void { return o.foo(a0, a1); }, \"\", pybind11::arg(\"a1\"), pybind11::arg(\"a2\"));\n",
    "\t\tcl.def(\"foo\", [](B &o, struct A const & a0, struct A & a1, struct A * a2) -> void { return o.foo(a0, a1, a2); }, \"\", pybind11::arg(\"a1\"), pybind11::arg(\"a2\"), pybind11::arg(\"a3\"));\n",
    "\t\tcl.def(\"foo\", (void (B::*)(struct A, struct A &, struct A *, int)) &B::foo, \"C++: B::foo(struct A, struct A &, struct A *, int) --> void\", pybind11::arg(\"a1\"), pybind11::arg(\"a2\"), pybind11::arg(\"a3\"), pybind11::arg(\"i\"));\n",
    "\t\tcl.def(\"foo_member\", [](B &o) -> double { return o.foo_member(); }, \"\");\n",
    "\t\tcl.def(\"foo_member\", [](B &o, const int & a0) -> double { return o.foo_member(a0); }, \"\", pybind11::arg(\"i\"));\n",
    "\t\tcl.def(\"foo_member\", [](B &o, const int & a0, float const & a1) -> double { return o.foo_member(a0, a1); }, \"\", pybind11::arg(\"i\"), pybind11::arg(\"f\"));\n",
    "\t\tcl.def(\"foo_member\", (double (B::*)(const int, float, double)) &B::foo_member, \"C++: B::foo_member(const int, float, double) --> double\", pybind11::arg(\"i\"), pybind11::arg(\"f\"), pybind11::arg(\"d\"));\n",
    "\t\tcl.def(\"foo_member_const\", [](B const &o) -> double { return o.foo_member_const(); }, \"\");\n",
    "\t\tcl.def(\"foo_member_const\", [](B const &o, int const & a0) -> double { return o.foo_member_const(a0); }, \"\", pybind11::arg(\"i\"));\n",
    "\t\tcl.def(\"foo_member_const\", [](B const &o, int const & a0, float const & a1) -> double { return o.foo_member_const(a0, a1); }, \"\", pybind11::arg(\"i\"), pybind11::arg(\"f\"));\n",
    "\t\tcl.def(\"foo_member_const\", (double (B::*)(int, float, double) const) &B::foo_member_const, \"C++: B::foo_member_const(int, float, double) const --> double\", pybind11::arg(\"i\"), pybind11::arg(\"f\"), pybind11::arg(\"d\"));\n",
    "\t\tcl.def_static(\"foo_static\", []() -> double { return B::foo_static(); }, \"\");\n",
    "\t\tcl.def_static(\"foo_static\", [](int const & a0) -> double { return B::foo_static(a0); }, \"\", pybind11::arg(\"i\"));\n",
    "\t\tcl.def_static(\"foo_static\", [](int const & a0, float const & a1) -> double { return B::foo_static(a0, a1); }, \"\", pybind11::arg(\"i\"), pybind11::arg(\"f\"));\n",
    "\t\tcl.def_static(\"foo_static\", (double (*)(int, float, double)) &B::foo_static, \"C++: B::foo_static(int, float, double) --> double\", pybind11::arg(\"i\"), pybind11::arg(\"f\"), pybind11::arg(\"d\"));\n",
    "\t}\n",
    "\t// foo_f0(void (void), int, float) file:T05.default.hpp line:\n",
    "\tM(\"\").def(\"foo_f0\", (void (*)(void (void), int, float)) &foo_f0, \"C++: foo_f0(void (void), int, float) --> void\", pybind11::arg(\"f\"), pybind11::arg(\"a\"), pybind11::arg(\"b\"));\n",
    "\n",
    "\t// foo_f1(void (&)(void), int, float) file:T05.default.hpp line:\n",
    "\tM(\"\").def(\"foo_f1\", (void (*)(void (&)(void), int, float)) &foo_f1, \"C++: foo_f1(void (&)(void), int, float) --> void\", pybind11::arg(\"f\"), pybind11::arg(\"a\"), pybind11::arg(\"b\"));\n",
    "\n",
    "}\n",
    "\n",
    "\n"] ++
   moduleHead ++
   ["\n",
    "void bind_T05_default(std::function< pybind11::module &(std::string const &namespace_) > &M);\n",
    "\n",
    "\n",
    "PYBIND11_MODULE(T05_default, root_module) {\n",
    "\troot_module.doc() = \"T05_default module\";\n",
    "\n"] ++
   moduleMiddle ++
   moduleEnd ++
   ["\n",
    "\tbind_T05_default(M);\n",
    "\n",
    "}\n",
    "\n",
    "// Source list file: TEST/T05_default.sources\n",
    "// T05_default.cpp\n",
    "// T05_default.cpp\n",
    "\n",
    "// Modules list file: TEST/T05_default.modules\n",
    "// \n"]

#guard (output c!"T05_default" E visits).map String.ofList = some (String.join expected)

end Binder.Conform.T05
