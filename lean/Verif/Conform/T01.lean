import Verif.Conform.Base

/-! # Conformance: `/repo/test/T01.enum.hpp`, enumerations and `-enum`, `+enum`, `-field` -/

namespace Binder.Conform.T01
open Binder Cxx

/-- The header as included. -/
def h := c!"<T01.enum.hpp>"

def v (pre a : Str) : Str × Str := (a, pre ++ a)

def enums : List EnumD :=
  [enumD h [] c!"E1" [v [] c!"E1_V0", v [] c!"E1_V1"],
   enumD h [] c!"E2_struct" [v c!"E2_struct::" c!"V0", v c!"E2_struct::" c!"V1"] (isScoped := true),
   enumD h [] c!"E3_class" [v c!"E3_class::" c!"V0", v c!"E3_class::" c!"V1"] (isScoped := true) (classTag := true),
   enumD h [] c!"E4_not_binded" [v [] c!"E4_V0", v [] c!"E4_V1"],
   enumD h c!"A::" c!"AE1" [v c!"A::" c!"AE1_V0", v c!"A::" c!"AE1_V1"] (access := .pub) (outer := some 0),
   enumD h c!"A::" c!"AE2_struct" [v c!"A::AE2_struct::" c!"AE3_V0", v c!"A::AE2_struct::" c!"AE3_V1"] (isScoped := true) (access := .pub) (outer := some 0),
   enumD h c!"A::" c!"AE3_class" [v c!"A::AE3_class::" c!"AE2_V0", v c!"A::AE3_class::" c!"AE2_V1"] (isScoped := true) (classTag := true) (access := .pub) (outer := some 0),
   enumD h c!"A::" c!"AE3_not_binded" [] (access := .prot) (outer := some 0),
   enumD h c!"A::" c!"AE4_not_binded" [] (isScoped := true) (classTag := true) (access := .prot) (outer := some 0),
   enumD h c!"A::" c!"AE5_not_binded" [] (access := .priv) (outer := some 0),
   enumD h c!"A::" c!"AE6_not_binded" [] (isScoped := true) (classTag := true) (access := .priv) (outer := some 0),
   enumD h [] c!"E6_class_not_binded" [v c!"E6_class_not_binded::" c!"V0", v c!"E6_class_not_binded::" c!"V1"] (isScoped := true) (classTag := true),
   enumD h c!"aaaa::" c!"E7_class" [v c!"aaaa::E7_class::" c!"V0", v c!"aaaa::E7_class::" c!"V1"] (isScoped := true) (classTag := true),
   enumD h c!"aaaa::" c!"E8_class_not_binded" [] (isScoped := true) (classTag := true)]

def A : Record := record h [] c!"A" ([.enum 4, .enum 5, .enum 6, field c!"A" c!"field1" tInt, field c!"A" c!"field2" tInt] ++ [.enum 7, .enum 8, .enum 9, .enum 10])

def visits : List Visit := [.enm 0, .enm 1, .enm 2, .enm 3, .cls 0] ++ [4, 5, 6, 7, 8, 9, 10, 11, 12, 13].map .enm

def cfgText := c!"-namespace aaaa\n\n-enum E4_not_binded\n\n-enum E6_class_not_binded\n+enum aaaa::E7_class\n\n-field A::field1"

def cfg : Config := match readConfig { namespacesToBind := [c!""] } cfgText with | .ok c => c | .error _ => {}

def E : Env := env cfg [A] enums [c!"class A"] (enums.map (c!"enum " ++ ·.qname)) []

/-- `/repo/test/T01.enum.ref.cpp`. -/
def expected : List String :=
  ["// File: T01_enum.cpp\n",
    "#include <T01.enum.hpp> // A\n",
    "#include <T01.enum.hpp> // E1\n",
    "#include <T01.enum.hpp> // E2_struct\n",
    "#include <T01.enum.hpp> // E3_class\n",
    "#include <sstream> // __str__\n",
    "\n"] ++
   casters ++
   ["\n",
    "void bind_T01_enum(std::function< pybind11::module &(std::string const &namespace_) > &M)\n",
    "{\n",
    "\t// E1 file:T01.enum.hpp line:\n",
    "\tpybind11::enum_<E1>(M(\"\"), \"E1\", pybind11::arithmetic(), \"\")\n",
    "\t\t.value(\"E1_V0\", E1_V0)\n",
    "\t\t.value(\"E1_V1\", E1_V1)\n",
    "\t\t.export_values();\n",
    "\n",
    ";\n",
    "\n",
    "\t// E2_struct file:T01.enum.hpp line:\n",
    "\tpybind11::enum_<E2_struct>(M(\"\"), \"E2_struct\", \"\")\n",
    "\t\t.value(\"V0\", E2_struct::V0)\n",
    "\t\t.value(\"V1\", E2_struct::V1)\n",
    "\t\t.export_values();\n",
    "\n",
    ";\n",
    "\n",
    "\t// E3_class file:T01.enum.hpp line:\n",
    "\tpybind11::enum_<E3_class>(M(\"\"), \"E3_class\", \"\")\n",
    "\t\t.value(\"V0\", E3_class::V0)\n",
    "\t\t.value(\"V1\", E3_class::V1);\n",
    "\n",
    ";\n",
    "\n",
    "\t{ // A file:T01.enum.hpp line:\n",
    "\t\tpybind11::class_<A, std::shared_ptr<A>> cl(M(\"\"), \"A\", \"\");\n",
    "\t\tcl.def( pybind11::init( [](){ return new A(); } ) );\n",
    "\n",
    "\t\tpybind11::enum_<A::AE1>(cl, \"AE1\", pybind11::arithmetic(), \"\")\n",
    "\t\t\t.value(\"AE1_V0\", A::AE1_V0)\n",
    "\t\t\t.value(\"AE1_V1\", A::AE1_V1)\n",
    "\t\t\t.export_values();\n",
    "\n",
    "\n",
    "\t\tpybind11::enum_<A::AE2_struct>(cl, \"AE2_struct\", \"\")\n",
    "\t\t\t.value(\"AE3_V0\", A::AE2_struct::AE3_V0)\n",
    "\t\t\t.value(\"AE3_V1\", A::AE2_struct::AE3_V1)\n",
    "\t\t\t.export_values();\n",
    "\n",
    "\n",
    "\t\tpybind11::enum_<A::AE3_class>(cl, \"AE3_class\", \"\")\n",
    "\t\t\t.value(\"AE2_V0\", A::AE3_class::AE2_V0)\n",
    "\t\t\t.value(\"AE2_V1\", A::AE3_class::AE2_V1);\n",
    "\n",
    "\t\tcl.def_readwrite(\"field2\", &A::field2);\n",
    "\t}\n",
    "}\n",
    "\n",
    "\n",
    "// File: T01_enum_1.cpp\n",
    "#include <T01.enum.hpp> // aaaa::E7_class\n",
    "\n"] ++
   casters ++
   ["\n",
    "void bind_T01_enum_1(std::function< pybind11::module &(std::string const &namespace_) > &M)\n",
    "{\n",
    "\t// aaaa::E7_class file:T01.enum.hpp line:\n",
    "\tpybind11::enum_<aaaa::E7_class>(M(\"aaaa\"), \"E7_class\", \"\")\n",
    "\t\t.value(\"V0\", aaaa::E7_class::V0)\n",
    "\t\t.value(\"V1\", aaaa::E7_class::V1);\n",
    "\n",
    ";\n",
    "\n",
    "}\n",
    "\n",
    "\n"] ++
   moduleHead ++
   ["\n",
    "void bind_T01_enum(std::function< pybind11::module &(std::string const &namespace_) > &M);\n",
    "void bind_T01_enum_1(std::function< pybind11::module &(std::string const &namespace_) > &M);\n",
    "\n",
    "\n",
    "PYBIND11_MODULE(T01_enum, root_module) {\n",
    "\troot_module.doc() = \"T01_enum module\";\n",
    "\n"] ++
   moduleMiddle ++
   ["\t\t{\"\", \"aaaa\"},\n"] ++
   moduleEnd ++
   ["\n",
    "\tbind_T01_enum(M);\n",
    "\tbind_T01_enum_1(M);\n",
    "\n",
    "}\n",
    "\n",
    "// Source list file: TEST/T01_enum.sources\n",
    "// T01_enum.cpp\n",
    "// T01_enum.cpp\n",
    "// T01_enum_1.cpp\n",
    "\n",
    "// Modules list file: TEST/T01_enum.modules\n",
    "// aaaa \n"]

#guard (output c!"T01_enum" E visits).map String.ofList = some (String.join expected)

end Binder.Conform.T01
