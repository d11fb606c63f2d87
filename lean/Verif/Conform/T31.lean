import Verif.Conform.Base

/-! # Conformance: `/repo/test/T31.include_for_class.hpp`, `+include_for_class` -/

namespace Binder.Conform.T31
open Binder Cxx

/-- The header as included. -/
def h := c!"<T31.include_for_class.hpp>"

def cfgText := c!"+include_for_class bbbb::B <T31.include_for_class.incl.b.extra.include>\n"

def cfg : Config := match readConfig { namespacesToBind := [c!""] } cfgText with | .ok c => c | .error _ => {}

def os : Ty := .record 0

def ost : Record := { record c!"<ostream>" c!"std::" c!"basic_ostream"
    [.method (method c!"<ostream>" c!"std::basic_ostream" 0 c!"seekp" (.lref os) [⟨[], .enum 0, false⟩]),
     .method (method c!"<ostream>" c!"std::basic_ostream" 0 c!"imbue" (.record 2) [⟨[], .lref (.const (.record 2)), false⟩]),
     .method (method c!"<ostream>" c!"std::basic_ostream" 0 c!"rdbuf" (.ptr (.record 3)) [])] with
  targs := some [⟨c!"char", .type tChar⟩, ⟨c!"std::char_traits<char>", .type (.record 1)⟩] }

def a := c!"<T31.include_for_class.incl.a.include>"

def b := c!"<T31.include_for_class.incl.b.include>"

def c := c!"<T31.include_for_class.incl.c.include>"

def op (ns : Str) (i : Nat) : Visit := .fn { func c ns c!"operator<<" (.lref os) [⟨[], .lref os, false⟩, ⟨[], .lref (.const (.record i)), false⟩] with isOperator := true }

def classes : List Record := [ost, { record c!"<string>" c!"std::" c!"char_traits" [] with targs := some [⟨c!"char", .type tChar⟩] }, record c!"<locale>" c!"std::" c!"locale" [],
  { record c!"<streambuf>" c!"std::" c!"basic_streambuf" [] with targs := some [⟨c!"char", .type tChar⟩, ⟨c!"std::char_traits<char>", .type (.record 1)⟩] },
  record a c!"aaaa::" c!"A" [], record b c!"bbbb::" c!"B" []]

def enums : List EnumD := [enumD c!"<ios>" c!"std::" c!"_Ios_Seekdir" []]

def visits : List Visit := [.cls 4, .cls 5, op c!"aaaa::cccc::" 4]

def E : Env := env cfg (classes.map fun r => { r with isStruct := true }) enums ([c!"class std::basic_ostream<char>", c!"struct std::char_traits<char>", c!"class std::locale", c!"class std::basic_streambuf<char, struct std::char_traits<char> >"] ++ (classes.drop 4).map (c!"struct " ++ ·.qname)) [c!"enum std::_Ios_Seekdir"] []

/-- `/repo/test/T31.include_for_class.ref.cpp`. -/
def expected : List String :=
  ["// File: T31_include_for_class_incl_a_include.cpp\n",
    "#include <T31.include_for_class.incl.a.include> // aaaa::A\n",
    "#include <T31.include_for_class.incl.c.include> // aaaa::cccc::operator<<\n",
    "#include <ios> // std::_Ios_Seekdir\n",
    "#include <locale> // std::locale\n",
    "#include <ostream> // std::basic_ostream\n",
    "#include <sstream> // __str__\n",
    "#include <streambuf> // std::basic_streambuf\n",
    "#include <string> // std::char_traits\n",
    "\n"] ++
   casters ++
   ["\n",
    "void bind_T31_include_for_class_incl_a_include(std::function< pybind11::module &(std::string const &namespace_) > &M)\n",
    "{\n",
    "\t{ // aaaa::A file:T31.include_for_class.incl.a.include line:\n",
    "\t\tpybind11::class_<aaaa::A, std::shared_ptr<aaaa::A>> cl(M(\"aaaa\"), \"A\", \"\");\n",
    "\t\tcl.def( pybind11::init( [](){ return new aaaa::A(); } ) );\n",
    "\n",
    "\t\tcl.def(\"__str__\", [](aaaa::A const &o) -> std::string { std::ostringstream s; using namespace aaaa::cccc; s << o; return s.str(); } );\n",
    "\t}\n",
    "}\n",
    "\n",
    "\n",
    "// File: T31_include_for_class_incl_b_include.cpp\n",
    "#include <T31.include_for_class.incl.b.extra.include> // +include_for_class\n",
    "#include <T31.include_for_class.incl.b.include> // bbbb::B\n",
    "#include <sstream> // __str__\n",
    "\n"] ++
   casters ++
   ["\n",
    "void bind_T31_include_for_class_incl_b_include(std::function< pybind11::module &(std::string const &namespace_) > &M)\n",
    "{\n",
    "\t{ // bbbb::B file:T31.include_for_class.incl.b.include line:\n",
    "\t\tpybind11::class_<bbbb::B, std::shared_ptr<bbbb::B>> cl(M(\"bbbb\"), \"B\", \"\");\n",
    "\t\tcl.def( pybind11::init( [](){ return new bbbb::B(); } ) );\n",
    "\t}\n",
    "}\n",
    "\n",
    "\n"] ++
   moduleHead ++
   ["\n",
    "void bind_T31_include_for_class_incl_a_include(std::function< pybind11::module &(std::string const &namespace_) > &M);\n",
    "void bind_T31_include_for_class_incl_b_include(std::function< pybind11::module &(std::string const &namespace_) > &M);\n",
    "\n",
    "\n",
    "PYBIND11_MODULE(T31_include_for_class, root_module) {\n",
    "\troot_module.doc() = \"T31_include_for_class module\";\n",
    "\n"] ++
   moduleMiddle ++
   ["\t\t{\"\", \"aaaa\"},\n",
    "\t\t{\"\", \"bbbb\"},\n"] ++
   moduleEnd ++
   ["\n",
    "\tbind_T31_include_for_class_incl_a_include(M);\n",
    "\tbind_T31_include_for_class_incl_b_include(M);\n",
    "\n",
    "}\n",
    "\n",
    "// Source list file: TEST/T31_include_for_class.sources\n",
    "// T31_include_for_class.cpp\n",
    "// T31_include_for_class_incl_a_include.cpp\n",
    "// T31_include_for_class_incl_b_include.cpp\n",
    "\n",
    "// Modules list file: TEST/T31_include_for_class.modules\n",
    "// aaaa bbbb \n"]

#guard (output c!"T31_include_for_class" E visits).map String.ofList = some (String.join expected)

end Binder.Conform.T31
