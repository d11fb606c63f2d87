import Verif.Conform.Base

/-! # Conformance: `/repo/test/T20.template.hpp`, instances of templates -/

namespace Binder.Conform.T20
open Binder Cxx

/-- The header as included. -/
def h := c!"<T20.template.hpp>"

def ti : TArg := ⟨c!"int", .type tInt⟩

def pk (n : Nat) : TArg := ⟨String.toList ("<" ++ String.intercalate ", " (List.replicate n "int") ++ ">"), .pack n⟩

def sp (n : Str) (r : Ty) (ps : List Param) (a : List TArg) : Visit := .fn { func h [] n r ps with templated := .functionTemplateSpecialization, targs := some a }

def classes : List Record :=
 [{ record h [] c!"A" [field c!"A<int>" c!"t_value" tInt, field c!"A<int>" c!"t_pointer" (.ptr tInt), .method (method h c!"A<int>" 0 c!"foo" tVoid [⟨[], .lref tInt, false⟩])] with targs := some [ti], hasInstantiationPoint := true },
  { record h [] c!"TemplateSpecialization" [field c!"TemplateSpecialization<float>" c!"data" tFloat] with targs := some [⟨c!"float", .type tFloat⟩], hasInstantiationPoint := true },
  { record h [] c!"A" [] with targs := some [⟨c!"float", .type tFloat⟩], isComplete := false },
  { record h [] c!"A" [] with targs := some [⟨c!"double", .type tDouble⟩], isComplete := false }]

def as (n : Nat) : List Param := List.replicate n ⟨c!"as", tInt, false⟩

def A : Ty := .record 0

def visits : List Visit := [sp c!"foo" tVoid [] [ti], sp c!"foo" tVoid [] [⟨c!"double", .type tDouble⟩], .cls 0, .cls 2, .cls 3, .fn (func h [] c!"fi_instantiated_by_use_in_function" tVoid [⟨[], A, false⟩]),
  .fn (func h [] c!"fi" tVoid [⟨[], .lref A, false⟩]), .fn (func h [] c!"fi" tVoid [⟨[], .ptr A, false⟩]), .fn (func h [] c!"ff_instantiated_by_use_in_function_not_binded" tVoid [⟨[], .lref (.record 2), false⟩]),
  .fn (func h [] c!"fd_instantiated_by_use_in_function_not_binded" tVoid [⟨[], .ptr (.record 3), false⟩]), sp c!"add" tInt [⟨c!"v", tInt, false⟩] [ti], sp c!"add" tInt (⟨c!"first", tInt, false⟩ :: as 2) [ti, pk 2],
  sp c!"add" tInt (⟨c!"first", tInt, false⟩ :: as 1) [ti, pk 1], sp c!"foo" tVoid [] [pk 0], sp c!"foo" tVoid (as 1) [pk 1], sp c!"foo" tVoid (as 2) [pk 2], sp c!"foo" tVoid (as 3) [pk 3], .fn (func h [] c!"instantiate" tVoid []), .cls 1]

def E : Env := env { namespacesToBind := [c!""] } classes [] [c!"class A<int>", c!"class TemplateSpecialization<float>", c!"class A<float>", c!"class A<double>"] [] []

/-- `/repo/test/T20.template.ref.cpp`. -/
def expected : List String :=
  ["// File: T20_template.cpp\n",
    "#include <T20.template.hpp> // A\n",
    "#include <T20.template.hpp> // TemplateSpecialization\n",
    "#include <T20.template.hpp> // add\n",
    "#include <T20.template.hpp> // fi\n",
    "#include <T20.template.hpp> // fi_instantiated_by_use_in_function\n",
    "#include <T20.template.hpp> // foo\n",
    "#include <T20.template.hpp> // instantiate\n",
    "#include <sstream> // __str__\n",
    "\n"] ++
   casters ++
   ["\n",
    "void bind_T20_template(std::function< pybind11::module &(std::string const &namespace_) > &M)\n",
    "{\n",
    "\t// foo() file:T20.template.hpp line:\n",
    "\tM(\"\").def(\"foo\", (void (*)()) &foo<int>, \"C++: foo() --> void\");\n",
    "\n",
    "\t// foo() file:T20.template.hpp line:\n",
    "\tM(\"\").def(\"foo\", (void (*)()) &foo<double>, \"C++: foo() --> void\");\n",
    "\n",
    "\t{ // A file:T20.template.hpp line:\n",
    "\t\tpybind11::class_<A<int>, std::shared_ptr<A<int>>> cl(M(\"\"), \"A_int_t\", \"\");\n",
    "\t\tcl.def( pybind11::init( [](){ return new A<int>(); } ) );\n",
    "\t\tcl.def_readwrite(\"t_value\", &A<int>::t_value);\n",
    "\t\tcl.def(\"foo\", (void (A<int>::*)(int &)) &A<int>::foo, \"C++: A<int>::foo(int &) --> void\", pybind11::arg(\"\"));\n",
    "\t}\n",
    "\t// fi_instantiated_by_use_in_function(class A<int>) file:T20.template.hpp line:\n",
    "\tM(\"\").def(\"fi_instantiated_by_use_in_function\", (void (*)(class A<int>)) &fi_instantiated_by_use_in_function, \"C++: fi_instantiated_by_use_in_function(class A<int>) --> void\", pybind11::arg(\"\"));\n",
    "\n",
    "\t// fi(class A<int> &) file:T20.template.hpp line:\n",
    "\tM(\"\").def(\"fi\", (void (*)(class A<int> &)) &fi, \"C++: fi(class A<int> &) --> void\", pybind11::arg(\"\"));\n",
    "\n",
    "\t// fi(class A<int> *) file:T20.template.hpp line:\n",
    "\tM(\"\").def(\"fi\", (void (*)(class A<int> *)) &fi, \"C++: fi(class A<int> *) --> void\", pybind11::arg(\"\"));\n",
    "\n",
    "\t// add(int) file:T20.template.hpp line:\n",
    "\tM(\"\").def(\"add\", (int (*)(int)) &add<int>, \"C++: add(int) --> int\", pybind11::arg(\"v\"));\n",
    "\n",
    "\t// add(int, int, int) file:T20.template.hpp line:\n",
    "\tM(\"\").def(\"add\", (int (*)(int, int, int)) &add<int,int, int>, \"C++: add(int, int, int) --> int\", pybind11::arg(\"first\"), pybind11::arg(\"as\"), pybind11::arg(\"as\"));\n",
    "\n",
    "\t// add(int, int) file:T20.template.hpp line:\n",
    "\tM(\"\").def(\"add\", (int (*)(int, int)) &add<int,int>, \"C++: add(int, int) --> int\", pybind11::arg(\"first\"), pybind11::arg(\"as\"));\n",
    "\n",
    "\t// foo() file:T20.template.hpp line:\n",
    "\tM(\"\").def(\"foo\", (void (*)()) &foo, \"C++: foo() --> void\");\n",
    "\n",
    "\t// foo(int) file:T20.template.hpp line:\n",
    "\tM(\"\").def(\"foo\", (void (*)(int)) &foo<int>, \"C++: foo(int) --> void\", pybind11::arg(\"as\"));\n",
    "\n",
    "\t// foo(int, int) file:T20.template.hpp line:\n",
    "\tM(\"\").def(\"foo\", (void (*)(int, int)) &foo<int, int>, \"C++: foo(int, int) --> void\", pybind11::arg(\"as\"), pybind11::arg(\"as\"));\n",
    "\n",
    "\t// foo(int, int, int) file:T20.template.hpp line:\n",
    "\tM(\"\").def(\"foo\", (void (*)(int, int, int)) &foo<int, int, int>, \"C++: foo(int, int, int) --> void\", pybind11::arg(\"as\"), pybind11::arg(\"as\"), pybind11::arg(\"as\"));\n",
    "\n",
    "\t// instantiate() file:T20.template.hpp line:\n",
    "\tM(\"\").def(\"instantiate\", (void (*)()) &instantiate, \"C++: instantiate() --> void\");\n",
    "\n",
    "\t{ // TemplateSpecialization file:T20.template.hpp line:\n",
    "\t\tpybind11::class_<TemplateSpecialization<float>, std::shared_ptr<TemplateSpecialization<float>>> cl(M(\"\"), \"TemplateSpecialization_float_t\", \"\");\n",
    "\t\tcl.def( pybind11::init( [](){ return new TemplateSpecialization<float>(); } ) );\n",
    "\t\tcl.def_readwrite(\"data\", &TemplateSpecialization<float>::data);\n",
    "\t}\n",
    "}\n",
    "\n",
    "\n"] ++
   moduleHead ++
   ["\n",
    "void bind_T20_template(std::function< pybind11::module &(std::string const &namespace_) > &M);\n",
    "\n",
    "\n",
    "PYBIND11_MODULE(T20_template, root_module) {\n",
    "\troot_module.doc() = \"T20_template module\";\n",
    "\n"] ++
   moduleMiddle ++
   moduleEnd ++
   ["\n",
    "\tbind_T20_template(M);\n",
    "\n",
    "}\n",
    "\n",
    "// Source list file: TEST/T20_template.sources\n",
    "// T20_template.cpp\n",
    "// T20_template.cpp\n",
    "\n",
    "// Modules list file: TEST/T20_template.modules\n",
    "// \n"]

#guard (output c!"T20_template" E visits).map String.ofList = some (String.join expected)

end Binder.Conform.T20
