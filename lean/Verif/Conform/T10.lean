import Verif.Conform.Base

/-! # Conformance: `/repo/test/T10.inheritance.hpp`, bases, `using`, `final` -/

namespace Binder.Conform.T10
open Binder Cxx

/-- The header as included. -/
def h := c!"<T10.inheritance.hpp>"

def b (i : Nat) : List Base := [⟨.pub, false, some i⟩]

def noImp (r : Record) : Record := { r with needsImplicitDefaultConstructor := false }

def v (n : Str) (i : Nat) (m : Str) (a : Access := .pub) : Func := method h n i m tVoid [] a (isVirtual := true)

def fin (f : Func) : Func := { f with method := f.method.map fun m => { m with isFinal := true } }

def dt : Field := { name := c!"data", qname := c!"Base::data", ty := tInt, access := .prot, isAnonymous := false }

def classes : List Record :=
 [record h [] c!"Base" [.method (v c!"Base" 0 c!"foo_protected" .prot), .field dt, .method (method h c!"Base" 0 c!"foo" tVoid []), .method (method h c!"Base" 0 c!"maybe" tVoid []),
    .method (v c!"Base" 0 c!"f_v"), .method (v c!"Base" 0 c!"f_v_2"), assign h c!"Base" 0, defaultCtor h c!"Base" 0 c!"Base"],
  record h [] c!"Derived" [.using .pub [.field dt], .using .pub [.method (v c!"Base" 0 c!"foo_protected" .prot)], assign h c!"Derived" 1, defaultCtor h c!"Derived" 1 c!"Derived"] (b 0),
  { record h [] c!"Delete" [.method { ctor h c!"Delete" 2 c!"Delete" [] (isDefault := true) with isDeleted := true }, .method { method h c!"Delete" 2 c!"maybe" tVoid [] with isDeleted := true }, assign h c!"Delete" 2] (b 0) with needsImplicitDefaultConstructor := false},
  record h [] c!"A" [defaultCtor h c!"A" 3 c!"A", copyCtor h c!"A" 3 c!"A", assign h c!"A" 3] (b 7),
  {record h [] c!"B" [copyCtor h c!"B" 4 c!"B", assign h c!"B" 4] (b 8) with needsImplicitDefaultConstructor := false, hasDefaultConstructor := false},
  record h [] c!"X" [.method (fin (v c!"X" 5 c!"f_v")), assign h c!"X" 5, defaultCtor h c!"X" 5 c!"X"] (b 0),
  { record h [] c!"Y" [.method (v c!"Y" 6 c!"f_v_2"), assign h c!"Y" 6, defaultCtor h c!"Y" 6 c!"Y"] (b 5) with isFinal := true },
  { record c!"<memory>" c!"std::" c!"enable_shared_from_this" [] with targs := some [⟨c!"A", .type (.record 3)⟩] },
  { record c!"<string>" c!"std::" c!"basic_string" [] with targs := some [⟨c!"char", .type tChar⟩] }]

def visits : List Visit := (List.range 7).map .cls

def E : Env := env { namespacesToBind := [c!""] } classes [] (classes.map (c!"class " ++ ·.name)) [] []

/-- `/repo/test/T10.inheritance.ref.cpp`. -/
def expected : List String :=
  ["// File: T10_inheritance.cpp\n",
    "#include <T10.inheritance.hpp> // A\n",
    "#include <T10.inheritance.hpp> // B\n",
    "#include <T10.inheritance.hpp> // Base\n",
    "#include <T10.inheritance.hpp> // Delete\n",
    "#include <T10.inheritance.hpp> // Derived\n",
    "#include <T10.inheritance.hpp> // X\n",
    "#include <T10.inheritance.hpp> // Y\n",
    "#include <sstream> // __str__\n",
    "\n"] ++
   casters ++
   ["\n",
    "// Base file:T10.inheritance.hpp line:\n",
    "struct PyCallBack_Base : public Base {\n",
    "\tusing Base::Base;\n",
    "\n",
    "\tvoid foo_protected() override {\n",
    "\t\tpybind11::gil_scoped_acquire gil;\n",
    "\t\tpybind11::function overload = pybind11::get_overload(static_cast<const Base *>(this), \"foo_protected\");\n",
    "\t\tif (overload) {\n",
    "\t\t\tauto o = overload.operator()<pybind11::return_value_policy::reference>();\n",
    "\t\t\tif (pybind11::detail::cast_is_temporary_value_reference<void>::value) {\n",
    "\t\t\t\tstatic pybind11::detail::override_caster_t<void> caster;\n",
    "\t\t\t\treturn pybind11::detail::cast_ref<void>(std::move(o), caster);\n",
    "\t\t\t}\n",
    "\t\t\treturn pybind11::detail::cast_safe<void>(std::move(o));\n",
    "\t\t}\n",
    "\t\treturn Base::foo_protected();\n",
    "\t}\n",
    "\tvoid f_v() override {\n",
    "\t\tpybind11::gil_scoped_acquire gil;\n",
    "\t\tpybind11::function overload = pybind11::get_overload(static_cast<const Base *>(this), \"f_v\");\n",
    "\t\tif (overload) {\n",
    "\t\t\tauto o = overload.operator()<pybind11::return_value_policy::reference>();\n",
    "\t\t\tif (pybind11::detail::cast_is_temporary_value_reference<void>::value) {\n",
    "\t\t\t\tstatic pybind11::detail::override_caster_t<void> caster;\n",
    "\t\t\t\treturn pybind11::detail::cast_ref<void>(std::move(o), caster);\n",
    "\t\t\t}\n",
    "\t\t\treturn pybind11::detail::cast_safe<void>(std::move(o));\n",
    "\t\t}\n",
    "\t\treturn Base::f_v();\n",
    "\t}\n",
    "\tvoid f_v_2() override {\n",
    "\t\tpybind11::gil_scoped_acquire gil;\n",
    "\t\tpybind11::function overload = pybind11::get_overload(static_cast<const Base *>(this), \"f_v_2\");\n",
    "\t\tif (overload) {\n",
    "\t\t\tauto o = overload.operator()<pybind11::return_value_policy::reference>();\n",
    "\t\t\tif (pybind11::detail::cast_is_temporary_value_reference<void>::value) {\n",
    "\t\t\t\tstatic pybind11::detail::override_caster_t<void> caster;\n",
    "\t\t\t\treturn pybind11::detail::cast_ref<void>(std::move(o), caster);\n",
    "\t\t\t}\n",
    "\t\t\treturn pybind11::detail::cast_safe<void>(std::move(o));\n",
    "\t\t}\n",
    "\t\treturn Base::f_v_2();\n",
    "\t}\n",
    "};\n",
    "\n",
    "// Derived file:T10.inheritance.hpp line:\n",
    "struct PyCallBack_Derived : public Derived {\n",
    "\tusing Derived::Derived;\n",
    "\n",
    "\tvoid foo_protected() override {\n",
    "\t\tpybind11::gil_scoped_acquire gil;\n",
    "\t\tpybind11::function overload = pybind11::get_overload(static_cast<const Derived *>(this), \"foo_protected\");\n",
    "\t\tif (overload) {\n",
    "\t\t\tauto o = overload.operator()<pybind11::return_value_policy::reference>();\n",
    "\t\t\tif (pybind11::detail::cast_is_temporary_value_reference<void>::value) {\n",
    "\t\t\t\tstatic pybind11::detail::override_caster_t<void> caster;\n",
    "\t\t\t\treturn pybind11::detail::cast_ref<void>(std::move(o), caster);\n",
    "\t\t\t}\n",
    "\t\t\treturn pybind11::detail::cast_safe<void>(std::move(o));\n",
    "\t\t}\n",
    "\t\treturn Base::foo_protected();\n",
    "\t}\n",
    "\tvoid f_v() override {\n",
    "\t\tpybind11::gil_scoped_acquire gil;\n",
    "\t\tpybind11::function overload = pybind11::get_overload(static_cast<const Derived *>(this), \"f_v\");\n",
    "\t\tif (overload) {\n",
    "\t\t\tauto o = overload.operator()<pybind11::return_value_policy::reference>();\n",
    "\t\t\tif (pybind11::detail::cast_is_temporary_value_reference<void>::value) {\n",
    "\t\t\t\tstatic pybind11::detail::override_caster_t<void> caster;\n",
    "\t\t\t\treturn pybind11::detail::cast_ref<void>(std::move(o), caster);\n",
    "\t\t\t}\n",
    "\t\t\treturn pybind11::detail::cast_safe<void>(std::move(o));\n",
    "\t\t}\n",
    "\t\treturn Base::f_v();\n",
    "\t}\n",
    "\tvoid f_v_2() override {\n",
    "\t\tpybind11::gil_scoped_acquire gil;\n",
    "\t\tpybind11::function overload = pybind11::get_overload(static_cast<const Derived *>(this), \"f_v_2\");\n",
    "\t\tif (overload) {\n",
    "\t\t\tauto o = overload.operator()<pybind11::return_value_policy::reference>();\n",
    "\t\t\tif (pybind11::detail::cast_is_temporary_value_reference<void>::value) {\n",
    "\t\t\t\tstatic pybind11::detail::override_caster_t<void> caster;\n",
    "\t\t\t\treturn pybind11::detail::cast_ref<void>(std::move(o), caster);\n",
    "\t\t\t}\n",
    "\t\t\treturn pybind11::detail::cast_safe<void>(std::move(o));\n",
    "\t\t}\n",
    "\t\treturn Base::f_v_2();\n",
    "\t}\n",
    "};\n",
    "\n",
    "// Delete file:T10.inheritance.hpp line:\n",
    "struct PyCallBack_Delete : public Delete {\n",
    "\tusing Delete::Delete;\n",
    "\n",
    "\tvoid foo_protected() override {\n",
    "\t\tpybind11::gil_scoped_acquire gil;\n",
    "\t\tpybind11::function overload = pybind11::get_overload(static_cast<const Delete *>(this), \"foo_protected\");\n",
    "\t\tif (overload) {\n",
    "\t\t\tauto o = overload.operator()<pybind11::return_value_policy::reference>();\n",
    "\t\t\tif (pybind11::detail::cast_is_temporary_value_reference<void>::value) {\n",
    "\t\t\t\tstatic pybind11::detail::override_caster_t<void> caster;\n",
    "\t\t\t\treturn pybind11::detail::cast_ref<void>(std::move(o), caster);\n",
    "\t\t\t}\n",
    "\t\t\treturn pybind11::detail::cast_safe<void>(std::move(o));\n",
    "\t\t}\n",
    "\t\treturn Base::foo_protected();\n",
    "\t}\n",
    "\tvoid f_v() override {\n",
    "\t\tpybind11::gil_scoped_acquire gil;\n",
    "\t\tpybind11::function overload = pybind11::get_overload(static_cast<const Delete *>(this), \"f_v\");\n",
    "\t\tif (overload) {\n",
    "\t\t\tauto o = overload.operator()<pybind11::return_value_policy::reference>();\n",
    "\t\t\tif (pybind11::detail::cast_is_temporary_value_reference<void>::value) {\n",
    "\t\t\t\tstatic pybind11::detail::override_caster_t<void> caster;\n",
    "\t\t\t\treturn pybind11::detail::cast_ref<void>(std::move(o), caster);\n",
    "\t\t\t}\n",
    "\t\t\treturn pybind11::detail::cast_safe<void>(std::move(o));\n",
    "\t\t}\n",
    "\t\treturn Base::f_v();\n",
    "\t}\n",
    "\tvoid f_v_2() override {\n",
    "\t\tpybind11::gil_scoped_acquire gil;\n",
    "\t\tpybind11::function overload = pybind11::get_overload(static_cast<const Delete *>(this), \"f_v_2\");\n",
    "\t\tif (overload) {\n",
    "\t\t\tauto o = overload.operator()<pybind11::return_value_policy::reference>();\n",
    "\t\t\tif (pybind11::detail::cast_is_temporary_value_reference<void>::value) {\n",
    "\t\t\t\tstatic pybind11::detail::override_caster_t<void> caster;\n",
    "\t\t\t\treturn pybind11::detail::cast_ref<void>(std::move(o), caster);\n",
    "\t\t\t}\n",
    "\t\t\treturn pybind11::detail::cast_safe<void>(std::move(o));\n",
    "\t\t}\n",
    "\t\treturn Base::f_v_2();\n",
    "\t}\n",
    "};\n",
    "\n",
    "// X file:T10.inheritance.hpp line:\n",
    "struct PyCallBack_X : public X {\n",
    "\tusing X::X;\n",
    "\n",
    "\tvoid foo_protected() override {\n",
    "\t\tpybind11::gil_scoped_acquire gil;\n",
    "\t\tpybind11::function overload = pybind11::get_overload(static_cast<const X *>(this), \"foo_protected\");\n",
    "\t\tif (overload) {\n",
    "\t\t\tauto o = overload.operator()<pybind11::return_value_policy::reference>();\n",
    "\t\t\tif (pybind11::detail::cast_is_temporary_value_reference<void>::value) {\n",
    "\t\t\t\tstatic pybind11::detail::override_caster_t<void> caster;\n",
    "\t\t\t\treturn pybind11::detail::cast_ref<void>(std::move(o), caster);\n",
    "\t\t\t}\n",
    "\t\t\treturn pybind11::detail::cast_safe<void>(std::move(o));\n",
    "\t\t}\n",
    "\t\treturn Base::foo_protected();\n",
    "\t}\n",
    "\tvoid f_v_2() override {\n",
    "\t\tpybind11::gil_scoped_acquire gil;\n",
    "\t\tpybind11::function overload = pybind11::get_overload(static_cast<const X *>(this), \"f_v_2\");\n",
    "\t\tif (overload) {\n",
    "\t\t\tauto o = overload.operator()<pybind11::return_value_policy::reference>();\n",
    "\t\t\tif (pybind11::detail::cast_is_temporary_value_reference<void>::value) {\n",
    "\t\t\t\tstatic pybind11::detail::override_caster_t<void> caster;\n",
    "\t\t\t\treturn pybind11::detail::cast_ref<void>(std::move(o), caster);\n",
    "\t\t\t}\n",
    "\t\t\treturn pybind11::detail::cast_safe<void>(std::move(o));\n",
    "\t\t}\n",
    "\t\treturn Base::f_v_2();\n",
    "\t}\n",
    "};\n",
    "\n",
    "void bind_T10_inheritance(std::function< pybind11::module &(std::string const &namespace_) > &M)\n",
    "{\n",
    "\t{ // Base file:T10.inheritance.hpp line:\n",
    "\t\tpybind11::class_<Base, std::shared_ptr<Base>, PyCallBack_Base> cl(M(\"\"), \"Base\", \"\");\n",
    "\t\tcl.def( pybind11::init( [](){ return new Base(); }, [](){ return new PyCallBack_Base(); } ) );\n",
    "\t\tcl.def(\"foo\", (void (Base::*)()) &Base::foo, \"C++: Base::foo() --> void\");\n",
    "\t\tcl.def(\"maybe\", (void (Base::*)()) &Base::maybe, \"C++: Base::maybe() --> void\");\n",
    "\t\tcl.def(\"f_v\", (void (Base::*)()) &Base::f_v, \"C++: Base::f_v() --> void\");\n",
    "\t\tcl.def(\"f_v_2\", (void (Base::*)()) &Base::f_v_2, \"C++: Base::f_v_2() --> void\");\n",
    "\t\tcl.def(\"assign\", (class Base & (Base::*)(const class Base &)) &Base::operator=, \"C++: Base::operator=(const class Base &) --> class Base &\", pybind11::return_value_policy::automatic, pybind11::arg(\"\"));\n",
    "\t}\n",
    "\t{ // Derived file:T10.inheritance.hpp line:\n",
    "\t\tpybind11::class_<Derived, std::shared_ptr<Derived>, PyCallBack_Derived, Base> cl(M(\"\"), \"Derived\", \"\");\n",
    "\t\tcl.def( pybind11::init( [](){ return new Derived(); }, [](){ return new PyCallBack_Derived(); } ) );\n",
    "\t\tcl.def_readwrite(\"data\", &Derived::data);\n",
    "\t\tcl.def(\"foo_protected\", [](Derived &o) -> void { return o.foo_protected(); }, \"\");\n",
    "\t\tcl.def(\"assign\", (class Derived & (Derived::*)(const class Derived &)) &Derived::operator=, \"C++: Derived::operator=(const class Derived &) --> class Derived &\", pybind11::return_value_policy::automatic, pybind11::arg(\"\"));\n",
    "\t}\n",
    "\t{ // Delete file:T10.inheritance.hpp line:\n",
    "\t\tpybind11::class_<Delete, std::shared_ptr<Delete>, PyCallBack_Delete, Base> cl(M(\"\"), \"Delete\", \"\");\n",
    "\t\tcl.def(\"assign\", (class Delete & (Delete::*)(const class Delete &)) &Delete::operator=, \"C++: Delete::operator=(const class Delete &) --> class Delete &\", pybind11::return_value_policy::automatic, pybind11::arg(\"\"));\n",
    "\t}\n",
    "\t{ // A file:T10.inheritance.hpp line:\n",
    "\t\tpybind11::class_<A, std::shared_ptr<A>> cl(M(\"\"), \"A\", \"\");\n",
    "\t\tcl.def( pybind11::init( [](){ return new A(); } ) );\n",
    "\t\tcl.def( pybind11::init( [](A const &o){ return new A(o); } ) );\n",
    "\t\tcl.def(\"assign\", (class A & (A::*)(const class A &)) &A::operator=, \"C++: A::operator=(const class A &) --> class A &\", pybind11::return_value_policy::automatic, pybind11::arg(\"\"));\n",
    "\t}\n",
    "\t{ // B file:T10.inheritance.hpp line:\n",
    "\t\tpybind11::class_<B, std::shared_ptr<B>> cl(M(\"\"), \"B\", \"\");\n",
    "\t\tcl.def( pybind11::init( [](B const &o){ return new B(o); } ) );\n",
    "\t\tcl.def(\"assign\", (class B & (B::*)(const class B &)) &B::operator=, \"C++: B::operator=(const class B &) --> class B &\", pybind11::return_value_policy::automatic, pybind11::arg(\"\"));\n",
    "\t}\n",
    "\t{ // X file:T10.inheritance.hpp line:\n",
    "\t\tpybind11::class_<X, std::shared_ptr<X>, PyCallBack_X, Base> cl(M(\"\"), \"X\", \"\");\n",
    "\t\tcl.def( pybind11::init( [](){ return new X(); }, [](){ return new PyCallBack_X(); } ) );\n",
    "\t\tcl.def(\"f_v\", (void (X::*)()) &X::f_v, \"C++: X::f_v() --> void\");\n",
    "\t\tcl.def(\"assign\", (class X & (X::*)(const class X &)) &X::operator=, \"C++: X::operator=(const class X &) --> class X &\", pybind11::return_value_policy::automatic, pybind11::arg(\"\"));\n",
    "\t}\n",
    "\t{ // Y file:T10.inheritance.hpp line:\n",
    "\t\tpybind11::class_<Y, std::shared_ptr<Y>, X> cl(M(\"\"), \"Y\", \"\");\n",
    "\t\tcl.def( pybind11::init( [](){ return new Y(); } ) );\n",
    "\t\tcl.def(\"f_v_2\", (void (Y::*)()) &Y::f_v_2, \"C++: Y::f_v_2() --> void\");\n",
    "\t\tcl.def(\"assign\", (class Y & (Y::*)(const class Y &)) &Y::operator=, \"C++: Y::operator=(const class Y &) --> class Y &\", pybind11::return_value_policy::automatic, pybind11::arg(\"\"));\n",
    "\t}\n",
    "}\n",
    "\n",
    "\n"] ++
   moduleHead ++
   ["\n",
    "void bind_T10_inheritance(std::function< pybind11::module &(std::string const &namespace_) > &M);\n",
    "\n",
    "\n",
    "PYBIND11_MODULE(T10_inheritance, root_module) {\n",
    "\troot_module.doc() = \"T10_inheritance module\";\n",
    "\n"] ++
   moduleMiddle ++
   moduleEnd ++
   ["\n",
    "\tbind_T10_inheritance(M);\n",
    "\n",
    "}\n",
    "\n",
    "// Source list file: TEST/T10_inheritance.sources\n",
    "// T10_inheritance.cpp\n",
    "// T10_inheritance.cpp\n",
    "\n",
    "// Modules list file: TEST/T10_inheritance.modules\n",
    "// \n"]

#guard (output c!"T10_inheritance" E visits).map String.ofList = some (String.join expected)

end Binder.Conform.T10
