import Verif.Conform.Base

/-! # Conformance: `/repo/test/T30.include.hpp`, headers of template arguments -/

namespace Binder.Conform.T30
open Binder Cxx

/-- The header as included. -/
def h := c!"<T30.include.hpp>"

def classes : List Record := [record c!"<T30.include.incl.a.include>" c!"aaaa::" c!"A" [],
  { record c!"<T30.include.incl.b.include>" c!"bbbb::" c!"B" [] with targs := some [⟨c!"aaaa::A", .type (.record 0)⟩], hasInstantiationPoint := true }]

def visits : List Visit := [.cls 0, .cls 1, .fn (func h [] c!"foo" tVoid [⟨[], .sugar 0 (.record 1), false⟩])]

def E : Env := env { namespacesToBind := [c!""] } classes [] [c!"class aaaa::A", c!"class bbbb::B<class aaaa::A>"] [] [c!"bbbb::B<aaaa::A>"]

/-- `/repo/test/T30.include.ref.cpp`. -/
def expected : List String :=
  ["// File: T30_include_incl_a_include.cpp\n",
    "#include <T30.include.incl.a.include> // aaaa::A\n",
    "#include <sstream> // __str__\n",
    "\n"] ++
   casters ++
   ["\n",
    "void bind_T30_include_incl_a_include(std::function< pybind11::module &(std::string const &namespace_) > &M)\n",
    "{\n",
    "\t{ // aaaa::A file:T30.include.incl.a.include line:\n",
    "\t\tpybind11::class_<aaaa::A, std::shared_ptr<aaaa::A>> cl(M(\"aaaa\"), \"A\", \"\");\n",
    "\t\tcl.def( pybind11::init( [](){ return new aaaa::A(); } ) );\n",
    "\t}\n",
    "}\n",
    "\n",
    "\n",
    "// File: T30_include_incl_b_include.cpp\n",
    "#include <T30.include.incl.a.include> // aaaa::A\n",
    "#include <T30.include.incl.b.include> // bbbb::B\n",
    "#include <sstream> // __str__\n",
    "\n"] ++
   casters ++
   ["\n",
    "void bind_T30_include_incl_b_include(std::function< pybind11::module &(std::string const &namespace_) > &M)\n",
    "{\n",
    "\t{ // bbbb::B file:T30.include.incl.b.include line:\n",
    "\t\tpybind11::class_<bbbb::B<aaaa::A>, std::shared_ptr<bbbb::B<aaaa::A>>> cl(M(\"bbbb\"), \"B_aaaa_A_t\", \"\");\n",
    "\t\tcl.def( pybind11::init( [](){ return new bbbb::B<aaaa::A>(); } ) );\n",
    "\t}\n",
    "}\n",
    "\n",
    "\n",
    "// File: T30_include.cpp\n",
    "#include <T30.include.hpp> // foo\n",
    "#include <T30.include.incl.a.include> // aaaa::A\n",
    "#include <T30.include.incl.b.include> // bbbb::B\n",
    "\n"] ++
   casters ++
   ["\n",
    "void bind_T30_include(std::function< pybind11::module &(std::string const &namespace_) > &M)\n",
    "{\n",
    "\t// foo(class bbbb::B<class aaaa::A>) file:T30.include.hpp line:\n",
    "\tM(\"\").def(\"foo\", (void (*)(class bbbb::B<class aaaa::A>)) &foo, \"C++: foo(class bbbb::B<class aaaa::A>) --> void\", pybind11::arg(\"\"));\n",
    "\n",
    "}\n",
    "\n",
    "\n"] ++
   moduleHead ++
   ["\n",
    "void bind_T30_include_incl_a_include(std::function< pybind11::module &(std::string const &namespace_) > &M);\n",
    "void bind_T30_include_incl_b_include(std::function< pybind11::module &(std::string const &namespace_) > &M);\n",
    "void bind_T30_include(std::function< pybind11::module &(std::string const &namespace_) > &M);\n",
    "\n",
    "\n",
    "PYBIND11_MODULE(T30_include, root_module) {\n",
    "\troot_module.doc() = \"T30_include module\";\n",
    "\n"] ++
   moduleMiddle ++
   ["\t\t{\"\", \"aaaa\"},\n",
    "\t\t{\"\", \"bbbb\"},\n"] ++
   moduleEnd ++
   ["\n",
    "\tbind_T30_include_incl_a_include(M);\n",
    "\tbind_T30_include_incl_b_include(M);\n",
    "\tbind_T30_include(M);\n",
    "\n",
    "}\n",
    "\n",
    "// Source list file: TEST/T30_include.sources\n",
    "// T30_include.cpp\n",
    "// T30_include_incl_a_include.cpp\n",
    "// T30_include_incl_b_include.cpp\n",
    "// T30_include.cpp\n",
    "\n",
    "// Modules list file: TEST/T30_include.modules\n",
    "// aaaa bbbb \n"]

#guard (output c!"T30_include" E visits).map String.ofList = some (String.join expected)

end Binder.Conform.T30
