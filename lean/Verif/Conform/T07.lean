import Verif.Conform.Base

/-! # Conformance: `/repo/test/T07.class.hpp`, data members, access and nested enumerations -/

namespace Binder.Conform.T07
open Binder Cxx

/-- The header as included. -/
def h := c!"<T07.class.hpp>"

def dc (i : Nat) (n : Str) : Member := defaultCtor h n i n

def Integral := record h [] c!"Integral" [field c!"Integral" c!"i" tInt, field c!"Integral" c!"ui" tUInt, field c!"Integral" c!"l" tLong, field c!"Integral" c!"ul" tULong,
   copyCtor h c!"Integral" 0 c!"Integral", dc 0 c!"Integral", assign h c!"Integral" 0]

def Floating := record h [] c!"Floating_point" [field c!"Floating_point" c!"f" tFloat, field c!"Floating_point" c!"d" tDouble, field c!"Floating_point" c!"ld" (.basic 12)]

def Arrays := record h [] c!"Arrays" [field c!"Arrays" c!"i__not_binded" (.arr tInt), field c!"Arrays" c!"ii_not_binded" (.arr (.arr tInt))]

def PR := { record h [] c!"Pointers_and_References" [.method { ctor h c!"Pointers_and_References" 3 c!"Pointers_and_References" [] (isDefault := true) with isDeleted := true },
  field c!"Pointers_and_References" c!"ip_not_binded" (.ptr tInt), field c!"Pointers_and_References" c!"i_r" (.lref tInt)] with needsImplicitDefaultConstructor := false, hasDefaultConstructor := true }

def Consts := record h [] c!"Consts" [field c!"Consts" c!"private_int_not_binded" (.const tInt) .priv, .other, field c!"Consts" c!"public_Integral" (.const (.record 0)), .other,
  field c!"Consts" c!"public_int" (.const tInt), .other, field c!"Consts" c!"ip_not_binded" (.ptr (.const tInt)), field c!"Consts" c!"fp_not_binded" (.ptr (.const tFloat)), dc 4 c!"Consts", copyCtor h c!"Consts" 4 c!"Consts"]

def Enums := record h [] c!"Enums" [.enum 0, .enum 1, .enum 2, .enum 3, .enum 4]

def Acc := record h [] c!"Access" [field c!"Access" c!"i" tInt, .method (method h c!"Access" 6 c!"foo_public" tVoid []), 
  .method (method h c!"Access" 6 c!"foo" tFloat [⟨[], tDouble, false⟩] (isStatic := true)), .other, field c!"Access" c!"i_protected_not_binded" tInt .prot,
  .method (method h c!"Access" 6 c!"foo_protected_not_binded" tVoid [] .prot), field c!"Access" c!"i_not_binded" tInt .priv, .method (method h c!"Access" 6 c!"foo_private_not_binded" tVoid [] .priv)]

def CO := record h [] c!"ConstOverload" [.method (method h c!"ConstOverload" 7 c!"foo" tVoid [⟨[], tInt, false⟩]), .method (method h c!"ConstOverload" 7 c!"foo" tVoid [⟨[], tInt, false⟩] (isConst := true))]

def enums : List EnumD :=
  [enumD h c!"Enums::" c!"E1" [(c!"E1V", c!"Enums::E1V")] (access := .pub) (outer := some 5),
   enumD h c!"Enums::" c!"E2" [(c!"E2V", c!"Enums::E2::E2V")] (isScoped := true) (classTag := true) (access := .pub) (outer := some 5),
   enumD h c!"Enums::" c!"E3" [] (isScoped := true) (classTag := true) (access := .pub) (outer := some 5),
   enumD h c!"Enums::" c!"EP0_not_binded" [(c!"EP0V", c!"Enums::EP0V")] (access := .prot) (outer := some 5),
   enumD h c!"Enums::" c!"EP1_not_binded" [(c!"EP1V", c!"Enums::EP1V")] (access := .priv) (outer := some 5)]

def classes : List Record := [Integral, Floating, Arrays, PR, Consts, Enums, Acc, CO]

def visits : List Visit := [.cls 0, .cls 1, .cls 2, .cls 3, .cls 4, .cls 5, .enm 0, .enm 1, .enm 2, .enm 3, .enm 4, .cls 6, .cls 7]

def E : Env := env { namespacesToBind := [c!""] } classes enums (classes.map (c!"struct " ++ ·.name)) [] []

/-- `/repo/test/T07.class.ref.cpp`. -/
def expected : List String :=
  ["// File: T07_class.cpp\n",
    "#include <T07.class.hpp> // Access\n",
    "#include <T07.class.hpp> // Arrays\n",
    "#include <T07.class.hpp> // ConstOverload\n",
    "#include <T07.class.hpp> // Consts\n",
    "#include <T07.class.hpp> // Enums\n",
    "#include <T07.class.hpp> // Floating_point\n",
    "#include <T07.class.hpp> // Integral\n",
    "#include <T07.class.hpp> // Pointers_and_References\n",
    "#include <sstream> // __str__\n",
    "\n"] ++
   casters ++
   ["\n",
    "void bind_T07_class(std::function< pybind11::module &(std::string const &namespace_) > &M)\n",
    "{\n",
    "\t{ // Integral file:T07.class.hpp line:\n",
    "\t\tpybind11::class_<Integral, std::shared_ptr<Integral>> cl(M(\"\"), \"Integral\", \"\");\n",
    "\t\tcl.def( pybind11::init( [](Integral const &o){ return new Integral(o); } ) );\n",
    "\t\tcl.def( pybind11::init( [](){ return new Integral(); } ) );\n",
    "\t\tcl.def_readwrite(\"i\", &Integral::i);\n",
    "\t\tcl.def_readwrite(\"ui\", &Integral::ui);\n",
    "\t\tcl.def_readwrite(\"l\", &Integral::l);\n",
    "\t\tcl.def_readwrite(\"ul\", &Integral::ul);\n",
    "\t\tcl.def(\"assign\", (struct Integral & (Integral::*)(const struct Integral &)) &Integral::operator=, \"C++: Integral::operator=(const struct Integral &) --> struct Integral &\", pybind11::return_value_policy::automatic, pybind11::arg(\"\"));\n",
    "\t}\n",
    "\t{ // Floating_point file:T07.class.hpp line:\n",
    "\t\tpybind11::class_<Floating_point, std::shared_ptr<Floating_point>> cl(M(\"\"), \"Floating_point\", \"\");\n",
    "\t\tcl.def( pybind11::init( [](){ return new Floating_point(); } ) );\n",
    "\t\tcl.def_readwrite(\"f\", &Floating_point::f);\n",
    "\t\tcl.def_readwrite(\"d\", &Floating_point::d);\n",
    "\t\tcl.def_readwrite(\"ld\", &Floating_point::ld);\n",
    "\t}\n",
    "\t{ // Arrays file:T07.class.hpp line:\n",
    "\t\tpybind11::class_<Arrays, std::shared_ptr<Arrays>> cl(M(\"\"), \"Arrays\", \"\");\n",
    "\t\tcl.def( pybind11::init( [](){ return new Arrays(); } ) );\n",
    "\t}\n",
    "\t{ // Pointers_and_References file:T07.class.hpp line:\n",
    "\t\tpybind11::class_<Pointers_and_References, std::shared_ptr<Pointers_and_References>> cl(M(\"\"), \"Pointers_and_References\", \"\");\n",
    "\t}\n",
    "\t{ // Consts file:T07.class.hpp line:\n",
    "\t\tpybind11::class_<Consts, std::shared_ptr<Consts>> cl(M(\"\"), \"Consts\", \"\");\n",
    "\t\tcl.def( pybind11::init( [](){ return new Consts(); } ) );\n",
    "\t\tcl.def( pybind11::init( [](Consts const &o){ return new Consts(o); } ) );\n",
    "\t\tcl.def_readonly(\"public_Integral\", &Consts::public_Integral);\n",
    "\t\tcl.def_readonly(\"public_int\", &Consts::public_int);\n",
    "\t}\n",
    "\t{ // Enums file:T07.class.hpp line:\n",
    "\t\tpybind11::class_<Enums, std::shared_ptr<Enums>> cl(M(\"\"), \"Enums\", \"\");\n",
    "\t\tcl.def( pybind11::init( [](){ return new Enums(); } ) );\n",
    "\n",
    "\t\tpybind11::enum_<Enums::E1>(cl, \"E1\", pybind11::arithmetic(), \"\")\n",
    "\t\t\t.value(\"E1V\", Enums::E1V)\n",
    "\t\t\t.export_values();\n",
    "\n",
    "\n",
    "\t\tpybind11::enum_<Enums::E2>(cl, \"E2\", \"\")\n",
    "\t\t\t.value(\"E2V\", Enums::E2::E2V);\n",
    "\n",
    "\n",
    "\t\tpybind11::enum_<Enums::E3>(cl, \"E3\", \"\");\n",
    "\n",
    "\t}\n",
    "\t{ // Access file:T07.class.hpp line:\n",
    "\t\tpybind11::class_<Access, std::shared_ptr<Access>> cl(M(\"\"), \"Access\", \"\");\n",
    "\t\tcl.def( pybind11::init( [](){ return new Access(); } ) );\n",
    "\t\tcl.def_readwrite(\"i\", &Access::i);\n",
    "\t\tcl.def(\"foo_public\", (void (Access::*)()) &Access::foo_public, \"C++: Access::foo_public() --> void\");\n",
    "\t\tcl.def_static(\"foo\", (float (*)(double)) &Access::foo, \"C++: Access::foo(double) --> float\", pybind11::arg(\"\"));\n",
    "\t}\n",
    "\t{ // ConstOverload file:T07.class.hpp line:\n",
    "\t\tpybind11::class_<ConstOverload, std::shared_ptr<ConstOverload>> cl(M(\"\"), \"ConstOverload\", \"\");\n",
    "\t\tcl.def( pybind11::init( [](){ return new ConstOverload(); } ) );\n",
    "\t\tcl.def(\"foo\", (void (ConstOverload::*)(int)) &ConstOverload::foo, \"C++: ConstOverload::foo(int) --> void\", pybind11::arg(\"\"));\n",
    "\t}\n",
    "}\n",
    "\n",
    "\n"] ++
   moduleHead ++
   ["\n",
    "void bind_T07_class(std::function< pybind11::module &(std::string const &namespace_) > &M);\n",
    "\n",
    "\n",
    "PYBIND11_MODULE(T07_class, root_module) {\n",
    "\troot_module.doc() = \"T07_class module\";\n",
    "\n"] ++
   moduleMiddle ++
   moduleEnd ++
   ["\n",
    "\tbind_T07_class(M);\n",
    "\n",
    "}\n",
    "\n",
    "// Source list file: TEST/T07_class.sources\n",
    "// T07_class.cpp\n",
    "// T07_class.cpp\n",
    "\n",
    "// Modules list file: TEST/T07_class.modules\n",
    "// \n"]

#guard (output c!"T07_class" E visits).map String.ofList = some (String.join expected)

end Binder.Conform.T07
