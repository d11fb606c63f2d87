import Verif.Conform.Base

/-! # Conformance: `/repo/test/T50.namespace_binder.hpp`, custom binders of namespaces -/

namespace Binder.Conform.T50n
open Binder Cxx

/-- The header as included. -/
def h := c!"<T50.namespace_binder.hpp>"

def cfgText := c!"+include_for_namespace aaaa <T50.namespace_binder.a.1.include>\n+include_for_namespace aaaa <T50.namespace_binder.a.2.include>\n\n+include_for_namespace aaaa::bbbb <T50.namespace_binder.a.b.include>\n\n\n+add_on_binder_for_namespace aaaa add_on_binder_for_aaaa\n+binder_for_namespace aaaa::bbbb binder_for_aaaa_bbbb\n"

def cfg : Config := match readConfig { namespacesToBind := [c!""] } cfgText with | .ok c => c | .error _ => {}


def visits : List Visit := [.fn (func h [] c!"foo_root" tVoid []), .fn (func h c!"aaaa::" c!"foo_aaaa" tVoid []), .fn (func h c!"aaaa::bbbb::" c!"foo_aaaa_bbbb_not_binded" tVoid [])]

def E : Env := env cfg [] [] [] [] []

/-- `/repo/test/T50.namespace_binder.ref.cpp`. -/
def expected : List String :=
  ["// File: T50_namespace_binder.cpp\n",
    "#include <T50.namespace_binder.hpp> // foo_root\n",
    "\n"] ++
   casters ++
   ["\n",
    "void bind_T50_namespace_binder(std::function< pybind11::module &(std::string const &namespace_) > &M)\n",
    "{\n",
    "\t// foo_root() file:T50.namespace_binder.hpp line:\n",
    "\tM(\"\").def(\"foo_root\", (void (*)()) &foo_root, \"C++: foo_root() --> void\");\n",
    "\n",
    "}\n",
    "\n",
    "\n",
    "// File: T50_namespace_binder_1.cpp\n",
    "#include <T50.namespace_binder.a.1.include>\n",
    "#include <T50.namespace_binder.a.2.include>\n",
    "#include <T50.namespace_binder.hpp> // aaaa::foo_aaaa\n",
    "\n"] ++
   casters ++
   ["\n",
    "void bind_T50_namespace_binder_1(std::function< pybind11::module &(std::string const &namespace_) > &M)\n",
    "{\n",
    "\n",
    "\tadd_on_binder_for_aaaa(M(\"aaaa\"));\n",
    "\t// aaaa::foo_aaaa() file:T50.namespace_binder.hpp line:\n",
    "\tM(\"aaaa\").def(\"foo_aaaa\", (void (*)()) &aaaa::foo_aaaa, \"C++: aaaa::foo_aaaa() --> void\");\n",
    "\n",
    "}\n",
    "\n",
    "\n",
    "// File: T50_namespace_binder_2.cpp\n",
    "#include <T50.namespace_binder.a.b.include>\n",
    "\n"] ++
   casters ++
   ["\n",
    "void bind_T50_namespace_binder_2(std::function< pybind11::module &(std::string const &namespace_) > &M)\n",
    "{\n",
    "\n",
    "\tbinder_for_aaaa_bbbb(M(\"aaaa::bbbb\"));\n",
    "}\n",
    "\n",
    "\n"] ++
   moduleHead ++
   ["\n",
    "void bind_T50_namespace_binder(std::function< pybind11::module &(std::string const &namespace_) > &M);\n",
    "void bind_T50_namespace_binder_1(std::function< pybind11::module &(std::string const &namespace_) > &M);\n",
    "void bind_T50_namespace_binder_2(std::function< pybind11::module &(std::string const &namespace_) > &M);\n",
    "\n",
    "\n",
    "PYBIND11_MODULE(T50_namespace_binder, root_module) {\n",
    "\troot_module.doc() = \"T50_namespace_binder module\";\n",
    "\n"] ++
   moduleMiddle ++
   ["\t\t{\"\", \"aaaa\"},\n",
    "\t\t{\"aaaa\", \"bbbb\"},\n"] ++
   moduleEnd ++
   ["\n",
    "\tbind_T50_namespace_binder(M);\n",
    "\tbind_T50_namespace_binder_1(M);\n",
    "\tbind_T50_namespace_binder_2(M);\n",
    "\n",
    "}\n",
    "\n",
    "// Source list file: TEST/T50_namespace_binder.sources\n",
    "// T50_namespace_binder.cpp\n",
    "// T50_namespace_binder.cpp\n",
    "// T50_namespace_binder_1.cpp\n",
    "// T50_namespace_binder_2.cpp\n",
    "\n",
    "// Modules list file: TEST/T50_namespace_binder.modules\n",
    "// aaaa aaaa.bbbb \n"]

#guard (output c!"T50_namespace_binder" E visits).map String.ofList = some (String.join expected)

end Binder.Conform.T50n
