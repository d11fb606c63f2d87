import Verif.Conform.Base

/-! # Conformance: `/repo/test/T10.virtual_inheritance.hpp`, virtual bases of templates -/

namespace Binder.Conform.T10v
open Binder Cxx

/-- The header as included. -/
def h := c!"<T10.virtual_inheritance.hpp>"

def b (i : Nat) : List Base := [⟨.pub, true, some i⟩]

def v (n : Str) (i : Nat) (m : Str) (t : Ty) (p : Bool := false) : Member := .method (method h (n ++ c!"<1>") i m t [] (isVirtual := true) (isPure := p) (isConst := true))

def dtor (n : Str) (i : Nat) : Member := .method (method h (n ++ c!"<1>") i (c!"~" ++ n) tVoid [] (isVirtual := true) (kind := .dtor))

def imp (n : Str) (i : Nat) : List Member := let q := n ++ c!"<1>"
  [assign h q i, defaultCtor h q i n, copyCtor h q i n]

def tpl (r : Record) : Record := { r with targs := some [⟨c!"1", .integral tInt⟩], hasInstantiationPoint := true }

def classes : List Record :=
 [{tpl (record h [] c!"Animal" ([dtor c!"Animal" 0, v c!"Animal" 0 c!"Eat" tVoid true, .method (method h c!"Animal<1>" 0 c!"isAnimal" tBool []), v c!"Animal" 0 c!"isDog" tBool] ++ imp c!"Animal" 0)) with isAbstract := true },
  {tpl (record h [] c!"Mammal" ([v c!"Mammal" 1 c!"Breathe" tVoid true] ++ imp c!"Mammal" 1 ++ [dtor c!"Mammal" 1]) (b 0)) with isAbstract := true },
  tpl (record h [] c!"Dog" ([v c!"Dog" 2 c!"Eat" tVoid, v c!"Dog" 2 c!"Breathe" tVoid, v c!"Dog" 2 c!"isDog" tBool] ++ imp c!"Dog" 2 ++ [dtor c!"Dog" 2]) (b 1)),
  { record c!"<memory>" c!"std::" c!"shared_ptr" [] with targs := some [⟨c!"Animal<1>", .type (.record 0)⟩] }]

def visits : List Visit := [.cls 0, .cls 1, .cls 2, 
  .fn { func h [] c!"isThisAnimalADog" tBool [⟨c!"a", .lref (.const (.sugar 0 (.record 3))), false⟩] with templated := .functionTemplateSpecialization, targs := some [⟨c!"1", .integral tInt⟩]},
  .fn (func h [] c!"initiate" tVoid [⟨c!"p", .record 2, false⟩])]

def E : Env := env { namespacesToBind := [c!""] } classes [] [c!"class Animal<1>", c!"class Mammal<1>", c!"class Dog<1>", c!"class std::shared_ptr<class Animal<1> >"] [] [c!"std::shared_ptr<Animal<1>>"]

/-- `/repo/test/T10.virtual_inheritance.ref.cpp`. -/
def expected : List String :=
  ["// File: T10_virtual_inheritance.cpp\n",
    "#include <T10.virtual_inheritance.hpp> // Animal\n",
    "#include <T10.virtual_inheritance.hpp> // Dog\n",
    "#include <T10.virtual_inheritance.hpp> // Mammal\n",
    "#include <T10.virtual_inheritance.hpp> // initiate\n",
    "#include <T10.virtual_inheritance.hpp> // isThisAnimalADog\n",
    "#include <memory> // std::shared_ptr\n",
    "#include <sstream> // __str__\n",
    "\n"] ++
   casters ++
   ["\n",
    "// Animal file:T10.virtual_inheritance.hpp line:\n",
    "struct PyCallBack_Animal_1_t : public Animal<1> {\n",
    "\tusing Animal<1>::Animal;\n",
    "\n",
    "\tvoid Eat() const override {\n",
    "\t\tpybind11::gil_scoped_acquire gil;\n",
    "\t\tpybind11::function overload = pybind11::get_overload(static_cast<const Animal<1> *>(this), \"Eat\");\n",
    "\t\tif (overload) {\n",
    "\t\t\tauto o = overload.operator()<pybind11::return_value_policy::reference>();\n",
    "\t\t\tif (pybind11::detail::cast_is_temporary_value_reference<void>::value) {\n",
    "\t\t\t\tstatic pybind11::detail::override_caster_t<void> caster;\n",
    "\t\t\t\treturn pybind11::detail::cast_ref<void>(std::move(o), caster);\n",
    "\t\t\t}\n",
    "\t\t\treturn pybind11::detail::cast_safe<void>(std::move(o));\n",
    "\t\t}\n",
    "\t\tpybind11::pybind11_fail(\"Tried to call pure virtual function \\\"Animal::Eat\\\"\");\n",
    "\t}\n",
    "\tbool isDog() const override {\n",
    "\t\tpybind11::gil_scoped_acquire gil;\n",
    "\t\tpybind11::function overload = pybind11::get_overload(static_cast<const Animal<1> *>(this), \"isDog\");\n",
    "\t\tif (overload) {\n",
    "\t\t\tauto o = overload.operator()<pybind11::return_value_policy::reference>();\n",
    "\t\t\tif (pybind11::detail::cast_is_temporary_value_reference<bool>::value) {\n",
    "\t\t\t\tstatic pybind11::detail::override_caster_t<bool> caster;\n",
    "\t\t\t\treturn pybind11::detail::cast_ref<bool>(std::move(o), caster);\n",
    "\t\t\t}\n",
    "\t\t\treturn pybind11::detail::cast_safe<bool>(std::move(o));\n",
    "\t\t}\n",
    "\t\treturn Animal::isDog();\n",
    "\t}\n",
    "};\n",
    "\n",
    "// Mammal file:T10.virtual_inheritance.hpp line:\n",
    "struct PyCallBack_Mammal_1_t : public Mammal<1> {\n",
    "\tusing Mammal<1>::Mammal;\n",
    "\n",
    "\tvoid Breathe() const override {\n",
    "\t\tpybind11::gil_scoped_acquire gil;\n",
    "\t\tpybind11::function overload = pybind11::get_overload(static_cast<const Mammal<1> *>(this), \"Breathe\");\n",
    "\t\tif (overload) {\n",
    "\t\t\tauto o = overload.operator()<pybind11::return_value_policy::reference>();\n",
    "\t\t\tif (pybind11::detail::cast_is_temporary_value_reference<void>::value) {\n",
    "\t\t\t\tstatic pybind11::detail::override_caster_t<void> caster;\n",
    "\t\t\t\treturn pybind11::detail::cast_ref<void>(std::move(o), caster);\n",
    "\t\t\t}\n",
    "\t\t\treturn pybind11::detail::cast_safe<void>(std::move(o));\n",
    "\t\t}\n",
    "\t\tpybind11::pybind11_fail(\"Tried to call pure virtual function \\\"Mammal::Breathe\\\"\");\n",
    "\t}\n",
    "\tvoid Eat() const override {\n",
    "\t\tpybind11::gil_scoped_acquire gil;\n",
    "\t\tpybind11::function overload = pybind11::get_overload(static_cast<const Mammal<1> *>(this), \"Eat\");\n",
    "\t\tif (overload) {\n",
    "\t\t\tauto o = overload.operator()<pybind11::return_value_policy::reference>();\n",
    "\t\t\tif (pybind11::detail::cast_is_temporary_value_reference<void>::value) {\n",
    "\t\t\t\tstatic pybind11::detail::override_caster_t<void> caster;\n",
    "\t\t\t\treturn pybind11::detail::cast_ref<void>(std::move(o), caster);\n",
    "\t\t\t}\n",
    "\t\t\treturn pybind11::detail::cast_safe<void>(std::move(o));\n",
    "\t\t}\n",
    "\t\tpybind11::pybind11_fail(\"Tried to call pure virtual function \\\"Animal::Eat\\\"\");\n",
    "\t}\n",
    "\tbool isDog() const override {\n",
    "\t\tpybind11::gil_scoped_acquire gil;\n",
    "\t\tpybind11::function overload = pybind11::get_overload(static_cast<const Mammal<1> *>(this), \"isDog\");\n",
    "\t\tif (overload) {\n",
    "\t\t\tauto o = overload.operator()<pybind11::return_value_policy::reference>();\n",
    "\t\t\tif (pybind11::detail::cast_is_temporary_value_reference<bool>::value) {\n",
    "\t\t\t\tstatic pybind11::detail::override_caster_t<bool> caster;\n",
    "\t\t\t\treturn pybind11::detail::cast_ref<bool>(std::move(o), caster);\n",
    "\t\t\t}\n",
    "\t\t\treturn pybind11::detail::cast_safe<bool>(std::move(o));\n",
    "\t\t}\n",
    "\t\treturn Animal::isDog();\n",
    "\t}\n",
    "};\n",
    "\n",
    "// Dog file:T10.virtual_inheritance.hpp line:\n",
    "struct PyCallBack_Dog_1_t : public Dog<1> {\n",
    "\tusing Dog<1>::Dog;\n",
    "\n",
    "\tvoid Eat() const override {\n",
    "\t\tpybind11::gil_scoped_acquire gil;\n",
    "\t\tpybind11::function overload = pybind11::get_overload(static_cast<const Dog<1> *>(this), \"Eat\");\n",
    "\t\tif (overload) {\n",
    "\t\t\tauto o = overload.operator()<pybind11::return_value_policy::reference>();\n",
    "\t\t\tif (pybind11::detail::cast_is_temporary_value_reference<void>::value) {\n",
    "\t\t\t\tstatic pybind11::detail::override_caster_t<void> caster;\n",
    "\t\t\t\treturn pybind11::detail::cast_ref<void>(std::move(o), caster);\n",
    "\t\t\t}\n",
    "\t\t\treturn pybind11::detail::cast_safe<void>(std::move(o));\n",
    "\t\t}\n",
    "\t\treturn Dog::Eat();\n",
    "\t}\n",
    "\tvoid Breathe() const override {\n",
    "\t\tpybind11::gil_scoped_acquire gil;\n",
    "\t\tpybind11::function overload = pybind11::get_overload(static_cast<const Dog<1> *>(this), \"Breathe\");\n",
    "\t\tif (overload) {\n",
    "\t\t\tauto o = overload.operator()<pybind11::return_value_policy::reference>();\n",
    "\t\t\tif (pybind11::detail::cast_is_temporary_value_reference<void>::value) {\n",
    "\t\t\t\tstatic pybind11::detail::override_caster_t<void> caster;\n",
    "\t\t\t\treturn pybind11::detail::cast_ref<void>(std::move(o), caster);\n",
    "\t\t\t}\n",
    "\t\t\treturn pybind11::detail::cast_safe<void>(std::move(o));\n",
    "\t\t}\n",
    "\t\treturn Dog::Breathe();\n",
    "\t}\n",
    "\tbool isDog() const override {\n",
    "\t\tpybind11::gil_scoped_acquire gil;\n",
    "\t\tpybind11::function overload = pybind11::get_overload(static_cast<const Dog<1> *>(this), \"isDog\");\n",
    "\t\tif (overload) {\n",
    "\t\t\tauto o = overload.operator()<pybind11::return_value_policy::reference>();\n",
    "\t\t\tif (pybind11::detail::cast_is_temporary_value_reference<bool>::value) {\n",
    "\t\t\t\tstatic pybind11::detail::override_caster_t<bool> caster;\n",
    "\t\t\t\treturn pybind11::detail::cast_ref<bool>(std::move(o), caster);\n",
    "\t\t\t}\n",
    "\t\t\treturn pybind11::detail::cast_safe<bool>(std::move(o));\n",
    "\t\t}\n",
    "\t\treturn Dog::isDog();\n",
    "\t}\n",
    "};\n",
    "\n",
    "void bind_T10_virtual_inheritance(std::function< pybind11::module &(std::string const &namespace_) > &M)\n",
    "{\n",
    "\t{ // Animal file:T10.virtual_inheritance.hpp line:\n",
    "\t\tpybind11::class_<Animal<1>, std::shared_ptr<Animal<1>>, PyCallBack_Animal_1_t> cl(M(\"\"), \"Animal_1_t\", \"\");\n",
    "\t\tcl.def( pybind11::init( [](){ return new PyCallBack_Animal_1_t(); } ) );\n",
    "\t\tcl.def(pybind11::init<PyCallBack_Animal_1_t const &>());\n",
    "\t\tcl.def(\"Eat\", (void (Animal<1>::*)() const) &Animal<1>::Eat, \"C++: Animal<1>::Eat() const --> void\");\n",
    "\t\tcl.def(\"isAnimal\", (bool (Animal<1>::*)()) &Animal<1>::isAnimal, \"C++: Animal<1>::isAnimal() --> bool\");\n",
    "\t\tcl.def(\"isDog\", (bool (Animal<1>::*)() const) &Animal<1>::isDog, \"C++: Animal<1>::isDog() const --> bool\");\n",
    "\t\tcl.def(\"assign\", (class Animal<1> & (Animal<1>::*)(const class Animal<1> &)) &Animal<1>::operator=, \"C++: Animal<1>::operator=(const class Animal<1> &) --> class Animal<1> &\", pybind11::return_value_policy::automatic, pybind11::arg(\"\"));\n",
    "\t}\n",
    "\t{ // Mammal file:T10.virtual_inheritance.hpp line:\n",
    "\t\tpybind11::class_<Mammal<1>, std::shared_ptr<Mammal<1>>, PyCallBack_Mammal_1_t, Animal<1>> cl(M(\"\"), \"Mammal_1_t\", \"\");\n",
    "\t\tcl.def( pybind11::init( [](){ return new PyCallBack_Mammal_1_t(); } ) );\n",
    "\t\tcl.def(pybind11::init<PyCallBack_Mammal_1_t const &>());\n",
    "\t\tcl.def(\"Breathe\", (void (Mammal<1>::*)() const) &Mammal<1>::Breathe, \"C++: Mammal<1>::Breathe() const --> void\");\n",
    "\t\tcl.def(\"assign\", (class Mammal<1> & (Mammal<1>::*)(const class Mammal<1> &)) &Mammal<1>::operator=, \"C++: Mammal<1>::operator=(const class Mammal<1> &) --> class Mammal<1> &\", pybind11::return_value_policy::automatic, pybind11::arg(\"\"));\n",
    "\t}\n",
    "\t{ // Dog file:T10.virtual_inheritance.hpp line:\n",
    "\t\tpybind11::class_<Dog<1>, std::shared_ptr<Dog<1>>, PyCallBack_Dog_1_t, Mammal<1>> cl(M(\"\"), \"Dog_1_t\", \"\");\n",
    "\t\tcl.def( pybind11::init( [](){ return new Dog<1>(); }, [](){ return new PyCallBack_Dog_1_t(); } ) );\n",
    "\t\tcl.def( pybind11::init( [](PyCallBack_Dog_1_t const &o){ return new PyCallBack_Dog_1_t(o); } ) );\n",
    "\t\tcl.def( pybind11::init( [](Dog<1> const &o){ return new Dog<1>(o); } ) );\n",
    "\t\tcl.def(\"Eat\", (void (Dog<1>::*)() const) &Dog<1>::Eat, \"C++: Dog<1>::Eat() const --> void\");\n",
    "\t\tcl.def(\"Breathe\", (void (Dog<1>::*)() const) &Dog<1>::Breathe, \"C++: Dog<1>::Breathe() const --> void\");\n",
    "\t\tcl.def(\"isDog\", (bool (Dog<1>::*)() const) &Dog<1>::isDog, \"C++: Dog<1>::isDog() const --> bool\");\n",
    "\t\tcl.def(\"assign\", (class Dog<1> & (Dog<1>::*)(const class Dog<1> &)) &Dog<1>::operator=, \"C++: Dog<1>::operator=(const class Dog<1> &) --> class Dog<1> &\", pybind11::return_value_policy::automatic, pybind11::arg(\"\"));\n",
    "\t}\n",
    "\t// isThisAnimalADog(const class std::shared_ptr<class Animal<1> > &) file:T10.virtual_inheritance.hpp line:\n",
    "\tM(\"\").def(\"isThisAnimalADog\", (bool (*)(const class std::shared_ptr<class Animal<1> > &)) &isThisAnimalADog<1>, \"C++: isThisAnimalADog(const class std::shared_ptr<class Animal<1> > &) --> bool\", pybind11::arg(\"a\"));\n",
    "\n",
    "\t// initiate(class Dog<1>) file:T10.virtual_inheritance.hpp line:\n",
    "\tM(\"\").def(\"initiate\", (void (*)(class Dog<1>)) &initiate, \"C++: initiate(class Dog<1>) --> void\", pybind11::arg(\"p\"));\n",
    "\n",
    "}\n",
    "\n",
    "\n"] ++
   moduleHead ++
   ["\n",
    "void bind_T10_virtual_inheritance(std::function< pybind11::module &(std::string const &namespace_) > &M);\n",
    "\n",
    "\n",
    "PYBIND11_MODULE(T10_virtual_inheritance, root_module) {\n",
    "\troot_module.doc() = \"T10_virtual_inheritance module\";\n",
    "\n"] ++
   moduleMiddle ++
   moduleEnd ++
   ["\n",
    "\tbind_T10_virtual_inheritance(M);\n",
    "\n",
    "}\n",
    "\n",
    "// Source list file: TEST/T10_virtual_inheritance.sources\n",
    "// T10_virtual_inheritance.cpp\n",
    "// T10_virtual_inheritance.cpp\n",
    "\n",
    "// Modules list file: TEST/T10_virtual_inheritance.modules\n",
    "// \n"]

#guard (output c!"T10_virtual_inheritance" E visits).map String.ofList = some (String.join expected)

end Binder.Conform.T10v
