import Verif.Conform.Base

/-! # Conformance: `/repo/test/T15.inner_class.hpp`, nested classes and class templates -/

namespace Binder.Conform.T15i
open Binder Cxx

/-- The header as included. -/
def h := c!"<T15.inner_class.hpp>"

def b (i : Nat) : List Base := [⟨.pub, false, some i⟩]

def inner (r : Record) : Record := { r with outer := some 0, access := .pub }

/-- The injected class name: a declaration of the class inside itself. -/
def injected (name : Str) (qname : Str) (outer : Nat) : Record := { record h [] name with qname := qname ++ c!"::" ++ name, outer := some outer, access := .pub, isFirstDecl := false, isThisDefinition := false, definition := some outer }

def tmpl (k : Nat) (t : Ty) (n : Str) : Record := { inner (record h c!"Base::" c!"InnerTemplate" [.nested k, field (c!"Base::InnerTemplate<" ++ n ++ c!">") c!"value" t]) with targs := some [⟨n, .type t⟩], hasInstantiationPoint := true }

def classes : List Record :=
 [record h [] c!"Base" [.method (method h c!"Base" 0 c!"foo" tVoid [] (isVirtual := true)), .nested 1, .field ⟨[], c!"Base::", .record 1, .pub, true⟩, .nested 2, .classTemplate .pub [3, 4], assign h c!"Base" 0, defaultCtor h c!"Base" 0 c!"Base"],
  { inner (record h c!"Base::" [] [field c!"Base::(anonymous)" c!"a" tInt, field c!"Base::(anonymous)" c!"b" tFloat]) with isAnonymous := true, hasNameForLinkage := false, qname := c!"Base::(anonymous)" },
  inner (record h c!"Base::" c!"InnerBase" [.nested 7, field c!"Base::InnerBase" c!"ia" tInt, field c!"Base::InnerBase" c!"ib" tFloat, .method (method h c!"Base::InnerBase" 2 c!"foo_i" tVoid [])]),
  tmpl 8 tInt c!"int", tmpl 9 tFloat c!"float",
  record h c!"n1::" c!"A" [assign h c!"n1::A" 5, defaultCtor h c!"n1::A" 5 c!"A"] (b 0),
  record h c!"n1::n2::" c!"A" [assign h c!"n1::n2::A" 6, defaultCtor h c!"n1::n2::A" 6 c!"A"] (b 5),
  injected c!"InnerBase" c!"Base::InnerBase" 2, injected c!"InnerTemplate" c!"Base::InnerTemplate" 3, injected c!"InnerTemplate" c!"Base::InnerTemplate" 4]

def visits : List Visit := [.cls 0, .cls 1, .cls 2, .cls 3, .cls 4, .cls 5, .cls 6, .fn (func h [] c!"instantiate_templates" tVoid [⟨[], .record 3, false⟩, ⟨[], .record 4, false⟩])]

def E : Env := env { namespacesToBind := [c!""] } classes [] [c!"struct Base", c!"struct Base::(anonymous)", c!"struct Base::InnerBase", c!"struct Base::InnerTemplate<int>", c!"struct Base::InnerTemplate<float>", c!"struct n1::A", c!"struct n1::n2::A"] [] []

/-- `/repo/test/T15.inner_class.ref.cpp`. -/
def expected : List String :=
  ["// File: T15_inner_class.cpp\n",
    "#include <T15.inner_class.hpp> // Base\n",
    "#include <T15.inner_class.hpp> // Base::InnerBase\n",
    "#include <T15.inner_class.hpp> // Base::InnerTemplate\n",
    "#include <sstream> // __str__\n",
    "\n"] ++
   casters ++
   ["\n",
    "// Base file:T15.inner_class.hpp line:\n",
    "struct PyCallBack_Base : public Base {\n",
    "\tusing Base::Base;\n",
    "\n",
    "\tvoid foo() override {\n",
    "\t\tpybind11::gil_scoped_acquire gil;\n",
    "\t\tpybind11::function overload = pybind11::get_overload(static_cast<const Base *>(this), \"foo\");\n",
    "\t\tif (overload) {\n",
    "\t\t\tauto o = overload.operator()<pybind11::return_value_policy::reference>();\n",
    "\t\t\tif (pybind11::detail::cast_is_temporary_value_reference<void>::value) {\n",
    "\t\t\t\tstatic pybind11::detail::override_caster_t<void> caster;\n",
    "\t\t\t\treturn pybind11::detail::cast_ref<void>(std::move(o), caster);\n",
    "\t\t\t}\n",
    "\t\t\treturn pybind11::detail::cast_safe<void>(std::move(o));\n",
    "\t\t}\n",
    "\t\treturn Base::foo();\n",
    "\t}\n",
    "};\n",
    "\n",
    "void bind_T15_inner_class(std::function< pybind11::module &(std::string const &namespace_) > &M)\n",
    "{\n",
    "\t{ // Base file:T15.inner_class.hpp line:\n",
    "\t\tpybind11::class_<Base, std::shared_ptr<Base>, PyCallBack_Base> cl(M(\"\"), \"Base\", \"\");\n",
    "\t\tcl.def( pybind11::init( [](){ return new Base(); }, [](){ return new PyCallBack_Base(); } ) );\n",
    "\t\tcl.def(\"foo\", (void (Base::*)()) &Base::foo, \"C++: Base::foo() --> void\");\n",
    "\t\tcl.def(\"assign\", (struct Base & (Base::*)(const struct Base &)) &Base::operator=, \"C++: Base::operator=(const struct Base &) --> struct Base &\", pybind11::return_value_policy::automatic, pybind11::arg(\"\"));\n",
    "\n",
    "\t\t{ // Base::(anonymous) file:T15.inner_class.hpp line:\n",
    "\t\t\tcl.def_readwrite(\"a\", &Base::a);\n",
    "\t\t\tcl.def_readwrite(\"b\", &Base::b);\n",
    "\t\t}\n",
    "\n",
    "\t\t{ // Base::InnerBase file:T15.inner_class.hpp line:\n",
    "\t\t\tauto & enclosing_class = cl;\n",
    "\t\t\tpybind11::class_<Base::InnerBase, std::shared_ptr<Base::InnerBase>> cl(enclosing_class, \"InnerBase\", \"\");\n",
    "\t\t\tcl.def( pybind11::init( [](){ return new Base::InnerBase(); } ) );\n",
    "\t\t\tcl.def_readwrite(\"ia\", &Base::InnerBase::ia);\n",
    "\t\t\tcl.def_readwrite(\"ib\", &Base::InnerBase::ib);\n",
    "\t\t\tcl.def(\"foo_i\", (void (Base::InnerBase::*)()) &Base::InnerBase::foo_i, \"C++: Base::InnerBase::foo_i() --> void\");\n",
    "\t\t}\n",
    "\n",
    "\t\t{ // Base::InnerTemplate file:T15.inner_class.hpp line:\n",
    "\t\t\tauto & enclosing_class = cl;\n",
    "\t\t\tpybind11::class_<Base::InnerTemplate<int>, std::shared_ptr<Base::InnerTemplate<int>>> cl(enclosing_class, \"InnerTemplate_int_t\", \"\");\n",
    "\t\t\tcl.def( pybind11::init( [](){ return new Base::InnerTemplate<int>(); } ) );\n",
    "\t\t\tcl.def_readwrite(\"value\", &Base::InnerTemplate<int>::value);\n",
    "\t\t}\n",
    "\n",
    "\t\t{ // Base::InnerTemplate file:T15.inner_class.hpp line:\n",
    "\t\t\tauto & enclosing_class = cl;\n",
    "\t\t\tpybind11::class_<Base::InnerTemplate<float>, std::shared_ptr<Base::InnerTemplate<float>>> cl(enclosing_class, \"InnerTemplate_float_t\", \"\");\n",
    "\t\t\tcl.def( pybind11::init( [](){ return new Base::InnerTemplate<float>(); } ) );\n",
    "\t\t\tcl.def_readwrite(\"value\", &Base::InnerTemplate<float>::value);\n",
    "\t\t}\n",
    "\n",
    "\t}\n",
    "}\n",
    "\n",
    "\n",
    "// File: T15_inner_class_1.cpp\n",
    "#include <T15.inner_class.hpp> // Base\n",
    "#include <T15.inner_class.hpp> // n1::A\n",
    "#include <sstream> // __str__\n",
    "\n"] ++
   casters ++
   ["\n",
    "// n1::A file:T15.inner_class.hpp line:\n",
    "struct PyCallBack_n1_A : public n1::A {\n",
    "\tusing n1::A::A;\n",
    "\n",
    "\tvoid foo() override {\n",
    "\t\tpybind11::gil_scoped_acquire gil;\n",
    "\t\tpybind11::function overload = pybind11::get_overload(static_cast<const n1::A *>(this), \"foo\");\n",
    "\t\tif (overload) {\n",
    "\t\t\tauto o = overload.operator()<pybind11::return_value_policy::reference>();\n",
    "\t\t\tif (pybind11::detail::cast_is_temporary_value_reference<void>::value) {\n",
    "\t\t\t\tstatic pybind11::detail::override_caster_t<void> caster;\n",
    "\t\t\t\treturn pybind11::detail::cast_ref<void>(std::move(o), caster);\n",
    "\t\t\t}\n",
    "\t\t\treturn pybind11::detail::cast_safe<void>(std::move(o));\n",
    "\t\t}\n",
    "\t\treturn Base::foo();\n",
    "\t}\n",
    "};\n",
    "\n",
    "void bind_T15_inner_class_1(std::function< pybind11::module &(std::string const &namespace_) > &M)\n",
    "{\n",
    "\t{ // n1::A file:T15.inner_class.hpp line:\n",
    "\t\tpybind11::class_<n1::A, std::shared_ptr<n1::A>, PyCallBack_n1_A, Base> cl(M(\"n1\"), \"A\", \"\");\n",
    "\t\tcl.def( pybind11::init( [](){ return new n1::A(); }, [](){ return new PyCallBack_n1_A(); } ) );\n",
    "\t\tcl.def(\"assign\", (struct n1::A & (n1::A::*)(const struct n1::A &)) &n1::A::operator=, \"C++: n1::A::operator=(const struct n1::A &) --> struct n1::A &\", pybind11::return_value_policy::automatic, pybind11::arg(\"\"));\n",
    "\t}\n",
    "}\n",
    "\n",
    "\n",
    "// File: T15_inner_class_2.cpp\n",
    "#include <T15.inner_class.hpp> // Base\n",
    "#include <T15.inner_class.hpp> // n1::n2::A\n",
    "#include <sstream> // __str__\n",
    "\n"] ++
   casters ++
   ["\n",
    "// n1::n2::A file:T15.inner_class.hpp line:\n",
    "struct PyCallBack_n1_n2_A : public n1::n2::A {\n",
    "\tusing n1::n2::A::A;\n",
    "\n",
    "\tvoid foo() override {\n",
    "\t\tpybind11::gil_scoped_acquire gil;\n",
    "\t\tpybind11::function overload = pybind11::get_overload(static_cast<const n1::n2::A *>(this), \"foo\");\n",
    "\t\tif (overload) {\n",
    "\t\t\tauto o = overload.operator()<pybind11::return_value_policy::reference>();\n",
    "\t\t\tif (pybind11::detail::cast_is_temporary_value_reference<void>::value) {\n",
    "\t\t\t\tstatic pybind11::detail::override_caster_t<void> caster;\n",
    "\t\t\t\treturn pybind11::detail::cast_ref<void>(std::move(o), caster);\n",
    "\t\t\t}\n",
    "\t\t\treturn pybind11::detail::cast_safe<void>(std::move(o));\n",
    "\t\t}\n",
    "\t\treturn Base::foo();\n",
    "\t}\n",
    "};\n",
    "\n",
    "void bind_T15_inner_class_2(std::function< pybind11::module &(std::string const &namespace_) > &M)\n",
    "{\n",
    "\t{ // n1::n2::A file:T15.inner_class.hpp line:\n",
    "\t\tpybind11::class_<n1::n2::A, std::shared_ptr<n1::n2::A>, PyCallBack_n1_n2_A, n1::A> cl(M(\"n1::n2\"), \"A\", \"\");\n",
    "\t\tcl.def( pybind11::init( [](){ return new n1::n2::A(); }, [](){ return new PyCallBack_n1_n2_A(); } ) );\n",
    "\t\tcl.def(\"assign\", (struct n1::n2::A & (n1::n2::A::*)(const struct n1::n2::A &)) &n1::n2::A::operator=, \"C++: n1::n2::A::operator=(const struct n1::n2::A &) --> struct n1::n2::A &\", pybind11::return_value_policy::automatic, pybind11::arg(\"\"));\n",
    "\t}\n",
    "}\n",
    "\n",
    "\n",
    "// File: T15_inner_class_3.cpp\n",
    "#include <T15.inner_class.hpp> // Base\n",
    "#include <T15.inner_class.hpp> // instantiate_templates\n",
    "\n"] ++
   casters ++
   ["\n",
    "void bind_T15_inner_class_3(std::function< pybind11::module &(std::string const &namespace_) > &M)\n",
    "{\n",
    "\t// instantiate_templates(struct Base::InnerTemplate<int>, struct Base::InnerTemplate<float>) file:T15.inner_class.hpp line:\n",
    "\tM(\"\").def(\"instantiate_templates\", (void (*)(struct Base::InnerTemplate<int>, struct Base::InnerTemplate<float>)) &instantiate_templates, \"C++: instantiate_templates(struct Base::InnerTemplate<int>, struct Base::InnerTemplate<float>) --> void\", pybind11::arg(\"\"), pybind11::arg(\"\"));\n",
    "\n",
    "}\n",
    "\n",
    "\n"] ++
   moduleHead ++
   ["\n",
    "void bind_T15_inner_class(std::function< pybind11::module &(std::string const &namespace_) > &M);\n",
    "void bind_T15_inner_class_1(std::function< pybind11::module &(std::string const &namespace_) > &M);\n",
    "void bind_T15_inner_class_2(std::function< pybind11::module &(std::string const &namespace_) > &M);\n",
    "void bind_T15_inner_class_3(std::function< pybind11::module &(std::string const &namespace_) > &M);\n",
    "\n",
    "\n",
    "PYBIND11_MODULE(T15_inner_class, root_module) {\n",
    "\troot_module.doc() = \"T15_inner_class module\";\n",
    "\n"] ++
   moduleMiddle ++
   ["\t\t{\"\", \"n1\"},\n",
    "\t\t{\"n1\", \"n2\"},\n"] ++
   moduleEnd ++
   ["\n",
    "\tbind_T15_inner_class(M);\n",
    "\tbind_T15_inner_class_1(M);\n",
    "\tbind_T15_inner_class_2(M);\n",
    "\tbind_T15_inner_class_3(M);\n",
    "\n",
    "}\n",
    "\n",
    "// Source list file: TEST/T15_inner_class.sources\n",
    "// T15_inner_class.cpp\n",
    "// T15_inner_class.cpp\n",
    "// T15_inner_class_1.cpp\n",
    "// T15_inner_class_2.cpp\n",
    "// T15_inner_class_3.cpp\n",
    "\n",
    "// Modules list file: TEST/T15_inner_class.modules\n",
    "// n1 n1.n2 \n"]

#guard (output c!"T15_inner_class" E visits).map String.ofList = some (String.join expected)

end Binder.Conform.T15i
