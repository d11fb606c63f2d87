import Verif.Conform.Base

/-! # Conformance: `/repo/test/T12.operator.hpp`, operators -/

namespace Binder.Conform.T12
open Binder Cxx

/-- The header as included. -/
def h := c!"<T12.operator.hpp>"

def op (r : Ty) (m : Str) (p : List Ty) : Member := .method { method h c!"T" 0 (c!"operator" ++ m) r (p.map fun t => ⟨[], t, false⟩) with isOperator := true}

def T : Ty := .record 0

def R : Ty := .lref (.record 0)

def classes : List Record :=
 [{record h [] c!"T" ([c!"~", c!"+", c!"-", c!"*"].map (op R · []) ++ [c!"+", c!"-", c!"*", c!"/", c!"%", c!"|", c!"&", c!"^", c!"<<", c!">>"].map (op R · [tInt]) ++
     [c!"+=", c!"-=", c!"*=", c!"/=", c!"%=", c!"|=", c!"&=", c!"^=", c!"<<=", c!">>=", c!"()"].map (op tVoid · [tInt]) ++
     [c!"==", c!"!="].map (op tBool · [.lref (.const T)]) ++ [op tBool c!"[]" [tInt], assign h c!"T" 0, op R c!"++" [], op R c!"--" [], op R c!"++" [tInt], op R c!"--" [tInt]]) with isStruct := true}]

def visits : List Visit := [.cls 0]

def E : Env := env { namespacesToBind := [c!""] } classes [] [c!"struct T"] [] []

/-- `/repo/test/T12.operator.ref.cpp`. -/
def expected : List String :=
  ["// File: T12_operator.cpp\n",
    "#include <T12.operator.hpp> // T\n",
    "#include <sstream> // __str__\n",
    "\n"] ++
   casters ++
   ["\n",
    "void bind_T12_operator(std::function< pybind11::module &(std::string const &namespace_) > &M)\n",
    "{\n",
    "\t{ // T file:T12.operator.hpp line:\n",
    "\t\tpybind11::class_<T, std::shared_ptr<T>> cl(M(\"\"), \"T\", \"\");\n",
    "\t\tcl.def( pybind11::init( [](){ return new T(); } ) );\n",
    "\t\tcl.def(\"__invert__\", (struct T & (T::*)()) &T::operator~, \"C++: T::operator~() --> struct T &\", pybind11::return_value_policy::automatic);\n",
    "\t\tcl.def(\"__pos__\", (struct T & (T::*)()) &T::operator+, \"C++: T::operator+() --> struct T &\", pybind11::return_value_policy::automatic);\n",
    "\t\tcl.def(\"__neg__\", (struct T & (T::*)()) &T::operator-, \"C++: T::operator-() --> struct T &\", pybind11::return_value_policy::automatic);\n",
    "\t\tcl.def(\"dereference\", (struct T & (T::*)()) &T::operator*, \"C++: T::operator*() --> struct T &\", pybind11::return_value_policy::automatic);\n",
    "\t\tcl.def(\"__add__\", (struct T & (T::*)(int)) &T::operator+, \"C++: T::operator+(int) --> struct T &\", pybind11::return_value_policy::automatic, pybind11::arg(\"\"));\n",
    "\t\tcl.def(\"__sub__\", (struct T & (T::*)(int)) &T::operator-, \"C++: T::operator-(int) --> struct T &\", pybind11::return_value_policy::automatic, pybind11::arg(\"\"));\n",
    "\t\tcl.def(\"__mul__\", (struct T & (T::*)(int)) &T::operator*, \"C++: T::operator*(int) --> struct T &\", pybind11::return_value_policy::automatic, pybind11::arg(\"\"));\n",
    "\t\tcl.def(\"__truediv__\", (struct T & (T::*)(int)) &T::operator/, \"C++: T::operator/(int) --> struct T &\", pybind11::return_value_policy::automatic, pybind11::arg(\"\"));\n",
    "\t\tcl.def(\"__mod__\", (struct T & (T::*)(int)) &T::operator%, \"C++: T::operator%(int) --> struct T &\", pybind11::return_value_policy::automatic, pybind11::arg(\"\"));\n",
    "\t\tcl.def(\"__or__\", (struct T & (T::*)(int)) &T::operator|, \"C++: T::operator|(int) --> struct T &\", pybind11::return_value_policy::automatic, pybind11::arg(\"\"));\n",
    "\t\tcl.def(\"__and__\", (struct T & (T::*)(int)) &T::operator&, \"C++: T::operator&(int) --> struct T &\", pybind11::return_value_policy::automatic, pybind11::arg(\"\"));\n",
    "\t\tcl.def(\"__xor__\", (struct T & (T::*)(int)) &T::operator^, \"C++: T::operator^(int) --> struct T &\", pybind11::return_value_policy::automatic, pybind11::arg(\"\"));\n",
    "\t\tcl.def(\"__lshift__\", (struct T & (T::*)(int)) &T::operator<<, \"C++: T::operator<<(int) --> struct T &\", pybind11::return_value_policy::automatic, pybind11::arg(\"\"));\n",
    "\t\tcl.def(\"__rshift__\", (struct T & (T::*)(int)) &T::operator>>, \"C++: T::operator>>(int) --> struct T &\", pybind11::return_value_policy::automatic, pybind11::arg(\"\"));\n",
    "\t\tcl.def(\"__iadd__\", (void (T::*)(int)) &T::operator+=, \"C++: T::operator+=(int) --> void\", pybind11::arg(\"\"));\n",
    "\t\tcl.def(\"__isub__\", (void (T::*)(int)) &T::operator-=, \"C++: T::operator-=(int) --> void\", pybind11::arg(\"\"));\n",
    "\t\tcl.def(\"__imul__\", (void (T::*)(int)) &T::operator*=, \"C++: T::operator*=(int) --> void\", pybind11::arg(\"\"));\n",
    "\t\tcl.def(\"__itruediv__\", (void (T::*)(int)) &T::operator/=, \"C++: T::operator/=(int) --> void\", pybind11::arg(\"\"));\n",
    "\t\tcl.def(\"__imod__\", (void (T::*)(int)) &T::operator%=, \"C++: T::operator%=(int) --> void\", pybind11::arg(\"\"));\n",
    "\t\tcl.def(\"__ior__\", (void (T::*)(int)) &T::operator|=, \"C++: T::operator|=(int) --> void\", pybind11::arg(\"\"));\n",
    "\t\tcl.def(\"__iand__\", (void (T::*)(int)) &T::operator&=, \"C++: T::operator&=(int) --> void\", pybind11::arg(\"\"));\n",
    "\t\tcl.def(\"__ixor__\", (void (T::*)(int)) &T::operator^=, \"C++: T::operator^=(int) --> void\", pybind11::arg(\"\"));\n",
    "\t\tcl.def(\"__ilshift__\", (void (T::*)(int)) &T::operator<<=, \"C++: T::operator<<=(int) --> void\", pybind11::arg(\"\"));\n",
    "\t\tcl.def(\"__irshift__\", (void (T::*)(int)) &T::operator>>=, \"C++: T::operator>>=(int) --> void\", pybind11::arg(\"\"));\n",
    "\t\tcl.def(\"__call__\", (void (T::*)(int)) &T::operator(), \"C++: T::operator()(int) --> void\", pybind11::arg(\"\"));\n",
    "\t\tcl.def(\"__eq__\", (bool (T::*)(const struct T &)) &T::operator==, \"C++: T::operator==(const struct T &) --> bool\", pybind11::arg(\"\"));\n",
    "\t\tcl.def(\"__ne__\", (bool (T::*)(const struct T &)) &T::operator!=, \"C++: T::operator!=(const struct T &) --> bool\", pybind11::arg(\"\"));\n",
    "\t\tcl.def(\"__getitem__\", (bool (T::*)(int)) &T::operator[], \"C++: T::operator[](int) --> bool\", pybind11::arg(\"\"));\n",
    "\t\tcl.def(\"assign\", (struct T & (T::*)(const struct T &)) &T::operator=, \"C++: T::operator=(const struct T &) --> struct T &\", pybind11::return_value_policy::automatic, pybind11::arg(\"\"));\n",
    "\t\tcl.def(\"pre_increment\", (struct T & (T::*)()) &T::operator++, \"C++: T::operator++() --> struct T &\", pybind11::return_value_policy::automatic);\n",
    "\t\tcl.def(\"pre_decrement\", (struct T & (T::*)()) &T::operator--, \"C++: T::operator--() --> struct T &\", pybind11::return_value_policy::automatic);\n",
    "\t\tcl.def(\"post_increment\", (struct T & (T::*)(int)) &T::operator++, \"C++: T::operator++(int) --> struct T &\", pybind11::return_value_policy::automatic, pybind11::arg(\"\"));\n",
    "\t\tcl.def(\"post_decrement\", (struct T & (T::*)(int)) &T::operator--, \"C++: T::operator--(int) --> struct T &\", pybind11::return_value_policy::automatic, pybind11::arg(\"\"));\n",
    "\t}\n",
    "}\n",
    "\n",
    "\n"] ++
   moduleHead ++
   ["\n",
    "void bind_T12_operator(std::function< pybind11::module &(std::string const &namespace_) > &M);\n",
    "\n",
    "\n",
    "PYBIND11_MODULE(T12_operator, root_module) {\n",
    "\troot_module.doc() = \"T12_operator module\";\n",
    "\n"] ++
   moduleMiddle ++
   moduleEnd ++
   ["\n",
    "\tbind_T12_operator(M);\n",
    "\n",
    "}\n",
    "\n",
    "// Source list file: TEST/T12_operator.sources\n",
    "// T12_operator.cpp\n",
    "// T12_operator.cpp\n",
    "\n",
    "// Modules list file: TEST/T12_operator.modules\n",
    "// \n"]

#guard (output c!"T12_operator" E visits).map String.ofList = some (String.join expected)

end Binder.Conform.T12
