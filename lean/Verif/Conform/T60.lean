import Verif.Conform.Base

/-! # Conformance: `/repo/test/T60.custom_shared.hpp`, `+custom_shared` -/

namespace Binder.Conform.T60
open Binder Cxx

/-- The header as included. -/
def h := c!"<T60.custom_shared.hpp>"

def cfgText := c!"+custom_shared my_shared_ptr"

def cfg : Config := match readConfig { namespacesToBind := [c!""] } cfgText with | .ok c => c | .error _ => {}

def v (pre a : Str) : Str × Str := (a, pre ++ a)

def enums : List EnumD :=
  [enumD h [] c!"E1" [v [] c!"E1_V0", v [] c!"E1_V1"],
   enumD h [] c!"E2_struct" [v c!"E2_struct::" c!"V0", v c!"E2_struct::" c!"V1"] (isScoped := true),
   enumD h [] c!"E3_class" [v c!"E3_class::" c!"V0", v c!"E3_class::" c!"V1"] (isScoped := true) (classTag := true),
   enumD h c!"A::" c!"AE1" [v c!"A::" c!"AE1_V0", v c!"A::" c!"AE1_V1"] (access := .pub) (outer := some 0),
   enumD h c!"A::" c!"AE2_struct" [v c!"A::AE2_struct::" c!"AE3_V0", v c!"A::AE2_struct::" c!"AE3_V1"] (isScoped := true) (access := .pub) (outer := some 0),
   enumD h c!"A::" c!"AE3_class" [v c!"A::AE3_class::" c!"AE2_V0", v c!"A::AE3_class::" c!"AE2_V1"] (isScoped := true) (classTag := true) (access := .pub) (outer := some 0),
   enumD h c!"A::" c!"AE3_not_binded" [] (access := .prot) (outer := some 0)]

def A : Record := record h [] c!"A" [.enum 3, .enum 4, .enum 5, .enum 6]

def visits : List Visit := [.enm 0, .enm 1, .enm 2, .cls 0] ++ [3, 4, 5, 6].map .enm

def E : Env := { env cfg [A] enums [c!"class A"] (enums.map (c!"enum " ++ ·.qname)) [] with holder := cfg.holderType }

/-- `/repo/test/T60.custom_shared.ref.cpp`. -/
def expected : List String :=
  ["// File: T60_custom_shared.cpp\n",
    "#include <T60.custom_shared.hpp> // A\n",
    "#include <T60.custom_shared.hpp> // E1\n",
    "#include <T60.custom_shared.hpp> // E2_struct\n",
    "#include <T60.custom_shared.hpp> // E3_class\n",
    "#include <sstream> // __str__\n",
    "\n",
    "#include <functional>\n",
    "#include <pybind11/pybind11.h>\n",
    "#include <string>\n",
    "\n",
    "#ifndef BINDER_PYBIND11_TYPE_CASTER\n",
    "\t#define BINDER_PYBIND11_TYPE_CASTER\n",
    "\tPYBIND11_DECLARE_HOLDER_TYPE(T, my_shared_ptr<T>, false)\n",
    "\tPYBIND11_DECLARE_HOLDER_TYPE(T, T*, false)\n",
    "\tPYBIND11_MAKE_OPAQUE(my_shared_ptr<void>)\n",
    "#endif\n",
    "\n",
    "void bind_T60_custom_shared(std::function< pybind11::module &(std::string const &namespace_) > &M)\n",
    "{\n",
    "\t// E1 file:T60.custom_shared.hpp line:\n",
    "\tpybind11::enum_<E1>(M(\"\"), \"E1\", pybind11::arithmetic(), \"\")\n",
    "\t\t.value(\"E1_V0\", E1_V0)\n",
    "\t\t.value(\"E1_V1\", E1_V1)\n",
    "\t\t.export_values();\n",
    "\n",
    ";\n",
    "\n",
    "\t// E2_struct file:T60.custom_shared.hpp line:\n",
    "\tpybind11::enum_<E2_struct>(M(\"\"), \"E2_struct\", \"\")\n",
    "\t\t.value(\"V0\", E2_struct::V0)\n",
    "\t\t.value(\"V1\", E2_struct::V1)\n",
    "\t\t.export_values();\n",
    "\n",
    ";\n",
    "\n",
    "\t// E3_class file:T60.custom_shared.hpp line:\n",
    "\tpybind11::enum_<E3_class>(M(\"\"), \"E3_class\", \"\")\n",
    "\t\t.value(\"V0\", E3_class::V0)\n",
    "\t\t.value(\"V1\", E3_class::V1);\n",
    "\n",
    ";\n",
    "\n",
    "\t{ // A file:T60.custom_shared.hpp line:\n",
    "\t\tpybind11::class_<A, my_shared_ptr<A>> cl(M(\"\"), \"A\", \"\");\n",
    "\t\tcl.def( pybind11::init( [](){ return new A(); } ) );\n",
    "\n",
    "\t\tpybind11::enum_<A::AE1>(cl, \"AE1\", pybind11::arithmetic(), \"\")\n",
    "\t\t\t.value(\"AE1_V0\", A::AE1_V0)\n",
    "\t\t\t.value(\"AE1_V1\", A::AE1_V1)\n",
    "\t\t\t.export_values();\n",
    "\n",
    "\n",
    "\t\tpybind11::enum_<A::AE2_struct>(cl, \"AE2_struct\", \"\")\n",
    "\t\t\t.value(\"AE3_V0\", A::AE2_struct::AE3_V0)\n",
    "\t\t\t.value(\"AE3_V1\", A::AE2_struct::AE3_V1)\n",
    "\t\t\t.export_values();\n",
    "\n",
    "\n",
    "\t\tpybind11::enum_<A::AE3_class>(cl, \"AE3_class\", \"\")\n",
    "\t\t\t.value(\"AE2_V0\", A::AE3_class::AE2_V0)\n",
    "\t\t\t.value(\"AE2_V1\", A::AE3_class::AE2_V1);\n",
    "\n",
    "\t}\n",
    "}\n",
    "\n",
    "\n"] ++
   moduleHead ++
   ["\n",
    "void bind_T60_custom_shared(std::function< pybind11::module &(std::string const &namespace_) > &M);\n",
    "\n",
    "\n",
    "PYBIND11_MODULE(T60_custom_shared, root_module) {\n",
    "\troot_module.doc() = \"T60_custom_shared module\";\n",
    "\n"] ++
   moduleMiddle ++
   moduleEnd ++
   ["\n",
    "\tbind_T60_custom_shared(M);\n",
    "\n",
    "}\n",
    "\n",
    "// Source list file: TEST/T60_custom_shared.sources\n",
    "// T60_custom_shared.cpp\n",
    "// T60_custom_shared.cpp\n",
    "\n",
    "// Modules list file: TEST/T60_custom_shared.modules\n",
    "// \n"]

#guard (output c!"T60_custom_shared" E visits).map String.ofList = some (String.join expected)

end Binder.Conform.T60
