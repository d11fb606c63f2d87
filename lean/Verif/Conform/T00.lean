import Verif.Conform.Base

/-! # Conformance: `/repo/test/T00.basic.hpp`, basic functions -/

namespace Binder.Conform.T00
open Binder Cxx

/-- The header as included. -/
def h := c!"<T00.basic.hpp>"

def p (t : Ty) : List Param := [⟨[], t, false⟩]

def f (n : Str) (t : Ty) (r : Ty := tInt) : List Visit :=
  [.fn (func h [] n r (p t)), .fn (func h [] n r (p (.lref t))), .fn (func h [] n r (p (.ptr t)))]

def visits : List Visit :=
  [.fn (func h [] c!"foo" tVoid [])] ++ f c!"foo_char" tChar ++ f c!"foo_int" tInt ++ f c!"foo_float" tFloat tFloat ++ f c!"foo_double" tDouble tDouble ++
  [.fn (func h [] c!"foo_void_p" (.sugar 0 (.ptr tVoid)) (p (.sugar 0 (.ptr tVoid)))),
   .fn (func h [] c!"foo_void_p" (.sugar 0 (.ptr tVoid)) (p (.lref (.const (.sugar 0 (.ptr tVoid)))))),
   .fn (func h [] c!"foo_void_p" (.sugar 0 (.ptr tVoid)) (p (.lref (.sugar 0 (.ptr tVoid))))),
   .fn (func h c!"global::" c!"foo" tVoid []),
   .fn (func h c!"nonlocal::" c!"foo" tVoid [])]

def E : Env := env { namespacesToBind := [c!""] } [] [] [] [] [c!"VoidP"]

/-- `/repo/test/T00.basic.ref.cpp`. -/
def expected : List String :=
  ["// File: T00_basic.cpp\n",
    "#include <T00.basic.hpp> // foo\n",
    "#include <T00.basic.hpp> // foo_char\n",
    "#include <T00.basic.hpp> // foo_double\n",
    "#include <T00.basic.hpp> // foo_float\n",
    "#include <T00.basic.hpp> // foo_int\n",
    "#include <T00.basic.hpp> // foo_void_p\n",
    "\n"] ++
   casters ++
   ["\n",
    "void bind_T00_basic(std::function< pybind11::module &(std::string const &namespace_) > &M)\n",
    "{\n",
    "\t// foo() file:T00.basic.hpp line:\n",
    "\tM(\"\").def(\"foo\", (void (*)()) &foo, \"C++: foo() --> void\");\n",
    "\n",
    "\t// foo_char(char) file:T00.basic.hpp line:\n",
    "\tM(\"\").def(\"foo_char\", (int (*)(char)) &foo_char, \"C++: foo_char(char) --> int\", pybind11::arg(\"\"));\n",
    "\n",
    "\t// foo_char(char &) file:T00.basic.hpp line:\n",
    "\tM(\"\").def(\"foo_char\", (int (*)(char &)) &foo_char, \"C++: foo_char(char &) --> int\", pybind11::arg(\"\"));\n",
    "\n",
    "\t// foo_char(char *) file:T00.basic.hpp line:\n",
    "\tM(\"\").def(\"foo_char\", (int (*)(char *)) &foo_char, \"C++: foo_char(char *) --> int\", pybind11::arg(\"\"));\n",
    "\n",
    "\t// foo_int(int) file:T00.basic.hpp line:\n",
    "\tM(\"\").def(\"foo_int\", (int (*)(int)) &foo_int, \"C++: foo_int(int) --> int\", pybind11::arg(\"\"));\n",
    "\n",
    "\t// foo_int(int &) file:T00.basic.hpp line:\n",
    "\tM(\"\").def(\"foo_int\", (int (*)(int &)) &foo_int, \"C++: foo_int(int &) --> int\", pybind11::arg(\"\"));\n",
    "\n",
    "\t// foo_int(int *) file:T00.basic.hpp line:\n",
    "\tM(\"\").def(\"foo_int\", (int (*)(int *)) &foo_int, \"C++: foo_int(int *) --> int\", pybind11::arg(\"\"));\n",
    "\n",
    "\t// foo_float(float) file:T00.basic.hpp line:\n",
    "\tM(\"\").def(\"foo_float\", (float (*)(float)) &foo_float, \"C++: foo_float(float) --> float\", pybind11::arg(\"\"));\n",
    "\n",
    "\t// foo_float(float &) file:T00.basic.hpp line:\n",
    "\tM(\"\").def(\"foo_float\", (float (*)(float &)) &foo_float, \"C++: foo_float(float &) --> float\", pybind11::arg(\"\"));\n",
    "\n",
    "\t// foo_float(float *) file:T00.basic.hpp line:\n",
    "\tM(\"\").def(\"foo_float\", (float (*)(float *)) &foo_float, \"C++: foo_float(float *) --> float\", pybind11::arg(\"\"));\n",
    "\n",
    "\t// foo_double(double) file:T00.basic.hpp line:\n",
    "\tM(\"\").def(\"foo_double\", (double (*)(double)) &foo_double, \"C++: foo_double(double) --> double\", pybind11::arg(\"\"));\n",
    "\n",
    "\t// foo_double(double &) file:T00.basic.hpp line:\n",
    "\tM(\"\").def(\"foo_double\", (double (*)(double &)) &foo_double, \"C++: foo_double(double &) --> double\", pybind11::arg(\"\"));\n",
    "\n",
    "\t// foo_double(double *) file:T00.basic.hpp line:\n",
    "\tM(\"\").def(\"foo_double\", (double (*)(double *)) &foo_double, \"C++: foo_double(double *) --> double\", pybind11::arg(\"\"));\n",
    "\n",
    "\t// foo_void_p(void *) file:T00.basic.hpp line:\n",
    "\tM(\"\").def(\"foo_void_p\", (void * (*)(void *)) &foo_void_p, \"C++: foo_void_p(void *) --> void *\", pybind11::return_value_policy::automatic, pybind11::arg(\"\"));\n",
    "\n",
    "\t// foo_void_p(void *const &) file:T00.basic.hpp line:\n",
    "\tM(\"\").def(\"foo_void_p\", (void * (*)(void *const &)) &foo_void_p, \"C++: foo_void_p(void *const &) --> void *\", pybind11::return_value_policy::automatic, pybind11::arg(\"\"));\n",
    "\n",
    "\t// foo_void_p(void *&) file:T00.basic.hpp line:\n",
    "\tM(\"\").def(\"foo_void_p\", (void * (*)(void *&)) &foo_void_p, \"C++: foo_void_p(void *&) --> void *\", pybind11::return_value_policy::automatic, pybind11::arg(\"\"));\n",
    "\n",
    "}\n",
    "\n",
    "\n",
    "// File: T00_basic_1.cpp\n",
    "#include <T00.basic.hpp> // global::foo\n",
    "\n"] ++
   casters ++
   ["\n",
    "void bind_T00_basic_1(std::function< pybind11::module &(std::string const &namespace_) > &M)\n",
    "{\n",
    "\t// global::foo() file:T00.basic.hpp line:\n",
    "\tM(\"global\").def(\"foo\", (void (*)()) &global::foo, \"C++: global::foo() --> void\");\n",
    "\n",
    "}\n",
    "\n",
    "\n",
    "// File: T00_basic_2.cpp\n",
    "#include <T00.basic.hpp> // nonlocal::foo\n",
    "\n"] ++
   casters ++
   ["\n",
    "void bind_T00_basic_2(std::function< pybind11::module &(std::string const &namespace_) > &M)\n",
    "{\n",
    "\t// nonlocal::foo() file:T00.basic.hpp line:\n",
    "\tM(\"nonlocal\").def(\"foo\", (void (*)()) &nonlocal::foo, \"C++: nonlocal::foo() --> void\");\n",
    "\n",
    "}\n",
    "\n",
    "\n"] ++
   moduleHead ++
   ["\n",
    "void bind_T00_basic(std::function< pybind11::module &(std::string const &namespace_) > &M);\n",
    "void bind_T00_basic_1(std::function< pybind11::module &(std::string const &namespace_) > &M);\n",
    "void bind_T00_basic_2(std::function< pybind11::module &(std::string const &namespace_) > &M);\n",
    "\n",
    "\n",
    "PYBIND11_MODULE(T00_basic, root_module) {\n",
    "\troot_module.doc() = \"T00_basic module\";\n",
    "\n"] ++
   moduleMiddle ++
   ["\t\t{\"\", \"global\"},\n",
    "\t\t{\"\", \"nonlocal\"},\n"] ++
   moduleEnd ++
   ["\n",
    "\tbind_T00_basic(M);\n",
    "\tbind_T00_basic_1(M);\n",
    "\tbind_T00_basic_2(M);\n",
    "\n",
    "}\n",
    "\n",
    "// Source list file: TEST/T00_basic.sources\n",
    "// T00_basic.cpp\n",
    "// T00_basic.cpp\n",
    "// T00_basic_1.cpp\n",
    "// T00_basic_2.cpp\n",
    "\n",
    "// Modules list file: TEST/T00_basic.modules\n",
    "// global nonlocal \n"]

#guard (output c!"T00_basic" E visits).map String.ofList = some (String.join expected)

end Binder.Conform.T00
