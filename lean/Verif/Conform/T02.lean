import Verif.Conform.Base

/-! # Conformance: `/repo/test/T02.function.hpp`, overloads, smart pointers, `std::function` and function types -/

namespace Binder.Conform.T02
open Binder Cxx

/-- The header as included. -/
def h := c!"<T02.function.hpp>"

def sp : Ty := .sugar 0 (.record 1)

def spc : Ty := .sugar 1 (.record 2)

def pr : Ty := .sugar 2 (.record 3)

def tp : Ty := .sugar 3 (.record 4)

def ft : Ty := .sugar 5 (.fn tVoid [])

def fp : Ty := .sugar 6 (.ptr (.fn tVoid []))

def fr : Ty := .sugar 7 (.lref (.fn tVoid []))

def str : Ty := .sugar 4 (.record 8)

def f (n : Str) (t : Ty) (p : Str := []) : Visit := .fn (func h [] n tVoid [⟨p, t, false⟩])

def cr (t : Ty) : Ty := .lref (.const t)

def stdc (i n : Str) (a : List TArg) : Record := { record i c!"std::" n [] with targs := some a }

def classes : List Record := [record h [] c!"A" [], stdc c!"<memory>" c!"shared_ptr" [⟨c!"A", .type (.record 0)⟩], stdc c!"<memory>" c!"shared_ptr" [⟨c!"const A", .type (.const (.record 0))⟩],
  stdc c!"<utility>" c!"pair" [⟨c!"int", .type tInt⟩, ⟨c!"int", .type tInt⟩], stdc c!"<tuple>" c!"tuple" [⟨c!"<int, int>", .pack 2⟩],
  stdc c!"<functional>" c!"function" [⟨c!"bool (const std::string &)", .type (.fn tBool [cr str])⟩],
  stdc c!"<functional>" c!"function" [⟨c!"void (*())()", .type (.fn fp [])⟩],
  stdc c!"<functional>" c!"function" [⟨c!"x", .type (.fn tBool [.ptr fp, .lref (.arr tInt)])⟩],
  stdc c!"<string>" c!"basic_string" [⟨c!"char", .type tChar⟩]]

def basics (n : Str) (g : Ty → Ty) : List Visit := [tBool, tInt, tLong, tFloat, tDouble, .record 0, sp].map fun t => f n (g t)

def visits : List Visit := [.cls 0] ++ basics c!"foo" id ++ basics c!"foo_r" .lref ++ [f c!"foo_r_not_binded" (.lref pr), f c!"foo_r_not_binded" (.lref tp)] ++ basics c!"foo_cr" cr ++ [f c!"foo_cr" (cr spc), f c!"foo_cr" (cr pr), f c!"foo_cr" (cr tp)] ++
  basics c!"foo_p" .ptr ++ [f c!"foo_p_not_binded" (.ptr pr), f c!"foo_p_not_binded" (.ptr tp), f c!"foo_cp_not_binded" (.ptr (.const pr)), f c!"foo_cp_not_binded" (.ptr (.const tp)),
  f c!"foo_f1" (cr (.sugar 8 (.record 5))) c!"f", f c!"foo_f2" (cr (.sugar 9 (.record 6))) c!"f", f c!"foo_f3" (cr (.sugar 10 (.record 7))) c!"f", f c!"foo_f4_not_binded" fp, f c!"foo_f5" fr, f c!"foo_f7" (.lref fr), f c!"foo_f8" (.lref ft) c!"f", f c!"foo_f9" (.ptr ft) c!"f"]

def E : Env := env { namespacesToBind := [c!""] } classes [] [c!"class A", c!"class std::shared_ptr<class A>", c!"class std::shared_ptr<const class A>", c!"struct std::pair<int, int>", c!"class std::tuple<int, int>", c!"class std::function<_Bool (const class std::basic_string<char> &)>", c!"class std::function<void (*(void))(void)>", c!"class std::function<_Bool (void (**)(void), int (&)[1])>", c!"class std::basic_string<char>"] [] [c!"std::shared_ptr<A>"]

/-- `/repo/test/T02.function.ref.cpp`. -/
def expected : List String :=
  ["// File: T02_function.cpp\n",
    "#include <T02.function.hpp> // A\n",
    "#include <T02.function.hpp> // foo\n",
    "#include <T02.function.hpp> // foo_cr\n",
    "#include <T02.function.hpp> // foo_f1\n",
    "#include <T02.function.hpp> // foo_f2\n",
    "#include <T02.function.hpp> // foo_f3\n",
    "#include <T02.function.hpp> // foo_f5\n",
    "#include <T02.function.hpp> // foo_f7\n",
    "#include <T02.function.hpp> // foo_f8\n",
    "#include <T02.function.hpp> // foo_p\n",
    "#include <T02.function.hpp> // foo_r\n",
    "#include <functional> // std::function\n",
    "#include <memory> // std::shared_ptr\n",
    "#include <sstream> // __str__\n",
    "#include <tuple> // std::tuple\n",
    "#include <utility> // std::pair\n",
    "\n"] ++
   casters ++
   ["\n",
    "void bind_T02_function(std::function< pybind11::module &(std::string const &namespace_) > &M)\n",
    "{\n",
    "\t{ // A file:T02.function.hpp line:\n",
    "\t\tpybind11::class_<A, std::shared_ptr<A>> cl(M(\"\"), \"A\", \"\");\n",
    "\t\tcl.def( pybind11::init( [](){ return new A(); } ) );\n",
    "\t}\n",
    "\t// foo(bool) file:T02.function.hpp line:\n",
    "\tM(\"\").def(\"foo\", (void (*)(bool)) &foo, \"C++: foo(bool) --> void\", pybind11::arg(\"\"));\n",
    "\n",
    "\t// foo(int) file:T02.function.hpp line:\n",
    "\tM(\"\").def(\"foo\", (void (*)(int)) &foo, \"C++: foo(int) --> void\", pybind11::arg(\"\"));\n",
    "\n",
    "\t// foo(long) file:T02.function.hpp line:\n",
    "\tM(\"\").def(\"foo\", (void (*)(long)) &foo, \"C++: foo(long) --> void\", pybind11::arg(\"\"));\n",
    "\n",
    "\t// foo(float) file:T02.function.hpp line:\n",
    "\tM(\"\").def(\"foo\", (void (*)(float)) &foo, \"C++: foo(float) --> void\", pybind11::arg(\"\"));\n",
    "\n",
    "\t// foo(double) file:T02.function.hpp line:\n",
    "\tM(\"\").def(\"foo\", (void (*)(double)) &foo, \"C++: foo(double) --> void\", pybind11::arg(\"\"));\n",
    "\n",
    "\t// foo(class A) file:T02.function.hpp line:\n",
    "\tM(\"\").def(\"foo\", (void (*)(class A)) &foo, \"C++: foo(class A) --> void\", pybind11::arg(\"\"));\n",
    "\n",
    "\t// foo(class std::shared_ptr<class A>) file:T02.function.hpp line:\n",
    "\tM(\"\").def(\"foo\", (void (*)(class std::shared_ptr<class A>)) &foo, \"C++: foo(class std::shared_ptr<class A>) --> void\", pybind11::arg(\"\"));\n",
    "\n",
    "\t// foo_r(bool &) file:T02.function.hpp line:\n",
    "\tM(\"\").def(\"foo_r\", (void (*)(bool &)) &foo_r, \"C++: foo_r(bool &) --> void\", pybind11::arg(\"\"));\n",
    "\n",
    "\t// foo_r(int &) file:T02.function.hpp line:\n",
    "\tM(\"\").def(\"foo_r\", (void (*)(int &)) &foo_r, \"C++: foo_r(int &) --> void\", pybind11::arg(\"\"));\n",
    "\n",
    "\t// foo_r(long &) file:T02.function.hpp line:\n",
    "\tM(\"\").def(\"foo_r\", (void (*)(long &)) &foo_r, \"C++: foo_r(long &) --> void\", pybind11::arg(\"\"));\n",
    "\n",
    "\t// foo_r(float &) file:T02.function.hpp line:\n",
    "\tM(\"\").def(\"foo_r\", (void (*)(float &)) &foo_r, \"C++: foo_r(float &) --> void\", pybind11::arg(\"\"));\n",
    "\n",
    "\t// foo_r(double &) file:T02.function.hpp line:\n",
    "\tM(\"\").def(\"foo_r\", (void (*)(double &)) &foo_r, \"C++: foo_r(double &) --> void\", pybind11::arg(\"\"));\n",
    "\n",
    "\t// foo_r(class A &) file:T02.function.hpp line:\n",
    "\tM(\"\").def(\"foo_r\", (void (*)(class A &)) &foo_r, \"C++: foo_r(class A &) --> void\", pybind11::arg(\"\"));\n",
    "\n",
    "\t// foo_r(class std::shared_ptr<class A> &) file:T02.function.hpp line:\n",
    "\tM(\"\").def(\"foo_r\", (void (*)(class std::shared_ptr<class A> &)) &foo_r, \"C++: foo_r(class std::shared_ptr<class A> &) --> void\", pybind11::arg(\"\"));\n",
    "\n",
    "\t// foo_cr(const bool &) file:T02.function.hpp line:\n",
    "\tM(\"\").def(\"foo_cr\", (void (*)(const bool &)) &foo_cr, \"C++: foo_cr(const bool &) --> void\", pybind11::arg(\"\"));\n",
    "\n",
    "\t// foo_cr(const int &) file:T02.function.hpp line:\n",
    "\tM(\"\").def(\"foo_cr\", (void (*)(const int &)) &foo_cr, \"C++: foo_cr(const int &) --> void\", pybind11::arg(\"\"));\n",
    "\n",
    "\t// foo_cr(const long &) file:T02.function.hpp line:\n",
    "\tM(\"\").def(\"foo_cr\", (void (*)(const long &)) &foo_cr, \"C++: foo_cr(const long &) --> void\", pybind11::arg(\"\"));\n",
    "\n",
    "\t// foo_cr(const float &) file:T02.function.hpp line:\n",
    "\tM(\"\").def(\"foo_cr\", (void (*)(const float &)) &foo_cr, \"C++: foo_cr(const float &) --> void\", pybind11::arg(\"\"));\n",
    "\n",
    "\t// foo_cr(const double &) file:T02.function.hpp line:\n",
    "\tM(\"\").def(\"foo_cr\", (void (*)(const double &)) &foo_cr, \"C++: foo_cr(const double &) --> void\", pybind11::arg(\"\"));\n",
    "\n",
    "\t// foo_cr(const class A &) file:T02.function.hpp line:\n",
    "\tM(\"\").def(\"foo_cr\", (void (*)(const class A &)) &foo_cr, \"C++: foo_cr(const class A &) --> void\", pybind11::arg(\"\"));\n",
    "\n",
    "\t// foo_cr(const class std::shared_ptr<class A> &) file:T02.function.hpp line:\n",
    "\tM(\"\").def(\"foo_cr\", (void (*)(const class std::shared_ptr<class A> &)) &foo_cr, \"C++: foo_cr(const class std::shared_ptr<class A> &) --> void\", pybind11::arg(\"\"));\n",
    "\n",
    "\t// foo_cr(const class std::shared_ptr<const class A> &) file:T02.function.hpp line:\n",
    "\tM(\"\").def(\"foo_cr\", (void (*)(const class std::shared_ptr<const class A> &)) &foo_cr, \"C++: foo_cr(const class std::shared_ptr<const class A> &) --> void\", pybind11::arg(\"\"));\n",
    "\n",
    "\t// foo_cr(const struct std::pair<int, int> &) file:T02.function.hpp line:\n",
    "\tM(\"\").def(\"foo_cr\", (void (*)(const struct std::pair<int, int> &)) &foo_cr, \"C++: foo_cr(const struct std::pair<int, int> &) --> void\", pybind11::arg(\"\"));\n",
    "\n",
    "\t// foo_cr(const class std::tuple<int, int> &) file:T02.function.hpp line:\n",
    "\tM(\"\").def(\"foo_cr\", (void (*)(const class std::tuple<int, int> &)) &foo_cr, \"C++: foo_cr(const class std::tuple<int, int> &) --> void\", pybind11::arg(\"\"));\n",
    "\n",
    "\t// foo_p(bool *) file:T02.function.hpp line:\n",
    "\tM(\"\").def(\"foo_p\", (void (*)(bool *)) &foo_p, \"C++: foo_p(bool *) --> void\", pybind11::arg(\"\"));\n",
    "\n",
    "\t// foo_p(int *) file:T02.function.hpp line:\n",
    "\tM(\"\").def(\"foo_p\", (void (*)(int *)) &foo_p, \"C++: foo_p(int *) --> void\", pybind11::arg(\"\"));\n",
    "\n",
    "\t// foo_p(long *) file:T02.function.hpp line:\n",
    "\tM(\"\").def(\"foo_p\", (void (*)(long *)) &foo_p, \"C++: foo_p(long *) --> void\", pybind11::arg(\"\"));\n",
    "\n",
    "\t// foo_p(float *) file:T02.function.hpp line:\n",
    "\tM(\"\").def(\"foo_p\", (void (*)(float *)) &foo_p, \"C++: foo_p(float *) --> void\", pybind11::arg(\"\"));\n",
    "\n",
    "\t// foo_p(double *) file:T02.function.hpp line:\n",
    "\tM(\"\").def(\"foo_p\", (void (*)(double *)) &foo_p, \"C++: foo_p(double *) --> void\", pybind11::arg(\"\"));\n",
    "\n",
    "\t// foo_p(class A *) file:T02.function.hpp line:\n",
    "\tM(\"\").def(\"foo_p\", (void (*)(class A *)) &foo_p, \"C++: foo_p(class A *) --> void\", pybind11::arg(\"\"));\n",
    "\n",
    "\t// foo_p(class std::shared_ptr<class A> *) file:T02.function.hpp line:\n",
    "\tM(\"\").def(\"foo_p\", (void (*)(class std::shared_ptr<class A> *)) &foo_p, \"C++: foo_p(class std::shared_ptr<class A> *) --> void\", pybind11::arg(\"\"));\n",
    "\n",
    "\t// foo_f1(const class std::function<bool (const std::string &)> &) file:T02.function.hpp line:\n",
    "\tM(\"\").def(\"foo_f1\", (void (*)(const class std::function<bool (const std::string &)> &)) &foo_f1, \"C++: foo_f1(const class std::function<bool (const std::string &)> &) --> void\", pybind11::arg(\"f\"));\n",
    "\n",
    "\t// foo_f2(const class std::function<void (*(void))(void)> &) file:T02.function.hpp line:\n",
    "\tM(\"\").def(\"foo_f2\", (void (*)(const class std::function<void (*(void))(void)> &)) &foo_f2, \"C++: foo_f2(const class std::function<void (*(void))(void)> &) --> void\", pybind11::arg(\"f\"));\n",
    "\n",
    "\t// foo_f3(const class std::function<bool (void (**)(void), int (&)[1])> &) file:T02.function.hpp line:\n",
    "\tM(\"\").def(\"foo_f3\", (void (*)(const class std::function<bool (void (**)(void), int (&)[1])> &)) &foo_f3, \"C++: foo_f3(const class std::function<bool (void (**)(void), int (&)[1])> &) --> void\", pybind11::arg(\"f\"));\n",
    "\n",
    "\t// foo_f5(void (&)(void)) file:T02.function.hpp line:\n",
    "\tM(\"\").def(\"foo_f5\", (void (*)(void (&)(void))) &foo_f5, \"C++: foo_f5(void (&)(void)) --> void\", pybind11::arg(\"\"));\n",
    "\n",
    "\t// foo_f7(void (&)(void)) file:T02.function.hpp line:\n",
    "\tM(\"\").def(\"foo_f7\", (void (*)(void (&)(void))) &foo_f7, \"C++: foo_f7(void (&)(void)) --> void\", pybind11::arg(\"\"));\n",
    "\n",
    "\t// foo_f8(void (&)(void)) file:T02.function.hpp line:\n",
    "\tM(\"\").def(\"foo_f8\", (void (*)(void (&)(void))) &foo_f8, \"C++: foo_f8(void (&)(void)) --> void\", pybind11::arg(\"f\"));\n",
    "\n",
    "}\n",
    "\n",
    "\n"] ++
   moduleHead ++
   ["\n",
    "void bind_T02_function(std::function< pybind11::module &(std::string const &namespace_) > &M);\n",
    "\n",
    "\n",
    "PYBIND11_MODULE(T02_function, root_module) {\n",
    "\troot_module.doc() = \"T02_function module\";\n",
    "\n"] ++
   moduleMiddle ++
   moduleEnd ++
   ["\n",
    "\tbind_T02_function(M);\n",
    "\n",
    "}\n",
    "\n",
    "// Source list file: TEST/T02_function.sources\n",
    "// T02_function.cpp\n",
    "// T02_function.cpp\n",
    "\n",
    "// Modules list file: TEST/T02_function.modules\n",
    "// \n"]

#guard (output c!"T02_function" E visits).map String.ofList = some (String.join expected)

end Binder.Conform.T02
