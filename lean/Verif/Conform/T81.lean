import Verif.Conform.Base

/-! # Conformance: `/repo/test/T81.custom_trampoline_with_args.hpp`, custom trampolines with arguments -/

namespace Binder.Conform.T81
open Binder Cxx

/-- The header as included. -/
def h := c!"<T81.custom_trampoline_with_args.hpp>"

def cfgText := c!"+include_for_class aaa::A <T81.custom_trampoline_with_args.include>\n+trampoline_member_function_binder aaa::A::foo myFoo"

def cfg : Config := match readConfig { namespacesToBind := [c!""] } cfgText with | .ok c => c | .error _ => {}

def q : Str := c!"aaa::A<double>"

def str : Ty := .sugar 0 (.record 1)

def classes : List Record := [{ record h c!"aaa::" c!"A" [.method (method h q 0 c!"foo" tVoid [⟨c!"a", tInt, false⟩, ⟨c!"b", str, false⟩, ⟨c!"d", tFloat, false⟩] (isVirtual := true)), assign h q 0, defaultCtor h q 0 c!"A"] with
  targs := some [⟨c!"double", .type tDouble⟩], hasInstantiationPoint := true },
  { record c!"<string>" c!"std::" c!"basic_string" [.method (method c!"<string>" c!"std::basic_string" 1 c!"begin" (.record 4) [])] with
      targs := some [⟨c!"char", .type tChar⟩, ⟨c!"std::char_traits<char>", .type (.record 2)⟩, ⟨c!"std::allocator<char>", .type (.record 3)⟩] },
  { record c!"<string>" c!"std::" c!"char_traits" [] with targs := some [⟨c!"char", .type tChar⟩] },
  { record c!"<memory>" c!"std::" c!"allocator" [] with targs := some [⟨c!"char", .type tChar⟩] },
  { record c!"<iterator>" c!"__gnu_cxx::" c!"__normal_iterator" [] with targs := some [⟨c!"char *", .type (.ptr tChar)⟩, ⟨c!"std::basic_string<char>", .type (.record 1)⟩] }]

def visits : List Visit := [.cls 0]

def E : Env := env cfg classes [] [c!"class aaa::A<double>", c!"class std::basic_string<char>"] [] [c!"std::string"]

/-- `/repo/test/T81.custom_trampoline_with_args.ref.cpp`. -/
def expected : List String :=
  ["// File: T81_custom_trampoline_with_args.cpp\n",
    "#include <T81.custom_trampoline_with_args.hpp> // aaa::A\n",
    "#include <T81.custom_trampoline_with_args.include> // +include_for_class\n",
    "#include <iterator> // __gnu_cxx::__normal_iterator\n",
    "#include <memory> // std::allocator\n",
    "#include <sstream> // __str__\n",
    "#include <string> // std::basic_string\n",
    "#include <string> // std::char_traits\n",
    "\n"] ++
   casters ++
   ["\n",
    "// aaa::A file:T81.custom_trampoline_with_args.hpp line:\n",
    "struct PyCallBack_aaa_A_double_t : public aaa::A<double> {\n",
    "\tusing aaa::A<double>::A;\n",
    "\n",
    "\tvoid foo(int a0, std::string a1, float a2) override {\n",
    "\t\treturn myFoo<A,PyCallBack_aaa_A_double_t>(this, \"aaa::A<double>\", \"foo\", a0, a1, a2);\n",
    "\t}\n",
    "};\n",
    "\n",
    "void bind_T81_custom_trampoline_with_args(std::function< pybind11::module &(std::string const &namespace_) > &M)\n",
    "{\n",
    "\t{ // aaa::A file:T81.custom_trampoline_with_args.hpp line:\n",
    "\t\tpybind11::class_<aaa::A<double>, std::shared_ptr<aaa::A<double>>, PyCallBack_aaa_A_double_t> cl(M(\"aaa\"), \"A_double_t\", \"\");\n",
    "\t\tcl.def( pybind11::init( [](){ return new aaa::A<double>(); }, [](){ return new PyCallBack_aaa_A_double_t(); } ) );\n",
    "\t\tcl.def(\"foo\", (void (aaa::A<double>::*)(int, std::string, float)) &aaa::A<double>::foo, \"C++: aaa::A<double>::foo(int, std::string, float) --> void\", pybind11::arg(\"a\"), pybind11::arg(\"b\"), pybind11::arg(\"d\"));\n",
    "\t\tcl.def(\"assign\", (class aaa::A<double> & (aaa::A<double>::*)(const class aaa::A<double> &)) &aaa::A<double>::operator=, \"C++: aaa::A<double>::operator=(const class aaa::A<double> &) --> class aaa::A<double> &\", pybind11::return_value_policy::automatic, pybind11::arg(\"\"));\n",
    "\t}\n",
    "}\n",
    "\n",
    "\n"] ++
   moduleHead ++
   ["\n",
    "void bind_T81_custom_trampoline_with_args(std::function< pybind11::module &(std::string const &namespace_) > &M);\n",
    "\n",
    "\n",
    "PYBIND11_MODULE(T81_custom_trampoline_with_args, root_module) {\n",
    "\troot_module.doc() = \"T81_custom_trampoline_with_args module\";\n",
    "\n"] ++
   moduleMiddle ++
   ["\t\t{\"\", \"aaa\"},\n"] ++
   moduleEnd ++
   ["\n",
    "\tbind_T81_custom_trampoline_with_args(M);\n",
    "\n",
    "}\n",
    "\n",
    "// Source list file: TEST/T81_custom_trampoline_with_args.sources\n",
    "// T81_custom_trampoline_with_args.cpp\n",
    "// T81_custom_trampoline_with_args.cpp\n",
    "\n",
    "// Modules list file: TEST/T81_custom_trampoline_with_args.modules\n",
    "// aaa \n"]

#guard (output c!"T81_custom_trampoline_with_args" E visits).map String.ofList = some (String.join expected)

end Binder.Conform.T81
