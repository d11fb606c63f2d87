import Verif.Conform.Base

/-! # Conformance: `/repo/test/T12.insertion_operator.hpp`, `operator<<` and `__str__` -/

namespace Binder.Conform.T12i
open Binder Cxx

/-- The header as included. -/
def h := c!"<T12.insertion_operator.hpp>"

def os : Ty := .record 0

def ost : Record := { record c!"<ostream>" c!"std::" c!"basic_ostream"
    [.method (method c!"<ostream>" c!"std::basic_ostream" 0 c!"seekp" (.lref os) [⟨[], .enum 0, false⟩]),
     .method (method c!"<ostream>" c!"std::basic_ostream" 0 c!"imbue" (.record 2) [⟨[], .lref (.const (.record 2)), false⟩]),
     .method (method c!"<ostream>" c!"std::basic_ostream" 0 c!"rdbuf" (.ptr (.record 3)) [])] with
  targs := some [⟨c!"char", .type tChar⟩, ⟨c!"std::char_traits<char>", .type (.record 1)⟩] }

def op (ns : Str) (i : Nat) : Visit := .fn { func h ns c!"operator<<" (.lref os) [⟨[], .lref os, false⟩, ⟨[], .lref (.const (.record i)), false⟩] with isOperator := true }

def cc (n m : Str) (i : Nat) := copyCtor h n i m

def classes : List Record := [ost, { record c!"<string>" c!"std::" c!"char_traits" [] with targs := some [⟨c!"char", .type tChar⟩] }, record c!"<locale>" c!"std::" c!"locale" [],
  { record c!"<streambuf>" c!"std::" c!"basic_streambuf" [] with targs := some [⟨c!"char", .type tChar⟩, ⟨c!"std::char_traits<char>", .type (.record 1)⟩] },
  record h [] c!"A" [], record h c!"aaaa::" c!"T" [defaultCtor h c!"aaaa::T" 5 c!"T", cc c!"aaaa::T" c!"T" 5], record h [] c!"A1" [field c!"A1" c!"a" tInt],
  record h c!"bbbb::" c!"B" [field c!"bbbb::B" c!"b" tInt .priv, defaultCtor h c!"bbbb::B" 7 c!"B", cc c!"bbbb::B" c!"B" 7], record h c!"bbbb::" c!"B2" [], record h c!"bbbb::cccc::" c!"C" []]

def enums : List EnumD := [enumD c!"<ios>" c!"std::" c!"_Ios_Seekdir" []]

def visits : List Visit := [.cls 4, op [] 4, .cls 5, op c!"aaaa::" 5, .cls 6, op c!"bbbb::" 6, op c!"bbbb::cccc::" 7, .cls 7, .cls 8, op c!"bbbb::" 8, .cls 9, op c!"bbbb::cccc::" 9]

def E : Env := env { namespacesToBind := [c!""] } (classes.map fun r => { r with isStruct := true }) enums ([c!"class std::basic_ostream<char>", c!"struct std::char_traits<char>", c!"class std::locale", c!"class std::basic_streambuf<char, struct std::char_traits<char> >"] ++ (classes.drop 4).map (c!"struct " ++ ·.qname)) [c!"enum std::_Ios_Seekdir"] []

/-- `/repo/test/T12.insertion_operator.ref.cpp`. -/
def expected : List String :=
  ["// File: T12_insertion_operator.cpp\n",
    "#include <T12.insertion_operator.hpp> // A\n",
    "#include <T12.insertion_operator.hpp> // operator<<\n",
    "#include <ios> // std::_Ios_Seekdir\n",
    "#include <locale> // std::locale\n",
    "#include <ostream> // std::basic_ostream\n",
    "#include <sstream> // __str__\n",
    "#include <streambuf> // std::basic_streambuf\n",
    "#include <string> // std::char_traits\n",
    "\n"] ++
   casters ++
   ["\n",
    "void bind_T12_insertion_operator(std::function< pybind11::module &(std::string const &namespace_) > &M)\n",
    "{\n",
    "\t{ // A file:T12.insertion_operator.hpp line:\n",
    "\t\tpybind11::class_<A, std::shared_ptr<A>> cl(M(\"\"), \"A\", \"\");\n",
    "\t\tcl.def( pybind11::init( [](){ return new A(); } ) );\n",
    "\n",
    "\t\tcl.def(\"__str__\", [](A const &o) -> std::string { std::ostringstream s; s << o; return s.str(); } );\n",
    "\t}\n",
    "}\n",
    "\n",
    "\n",
    "// File: T12_insertion_operator_1.cpp\n",
    "#include <T12.insertion_operator.hpp> // aaaa::T\n",
    "#include <T12.insertion_operator.hpp> // aaaa::operator<<\n",
    "#include <ios> // std::_Ios_Seekdir\n",
    "#include <locale> // std::locale\n",
    "#include <ostream> // std::basic_ostream\n",
    "#include <sstream> // __str__\n",
    "#include <streambuf> // std::basic_streambuf\n",
    "#include <string> // std::char_traits\n",
    "\n"] ++
   casters ++
   ["\n",
    "void bind_T12_insertion_operator_1(std::function< pybind11::module &(std::string const &namespace_) > &M)\n",
    "{\n",
    "\t{ // aaaa::T file:T12.insertion_operator.hpp line:\n",
    "\t\tpybind11::class_<aaaa::T, std::shared_ptr<aaaa::T>> cl(M(\"aaaa\"), \"T\", \"\");\n",
    "\t\tcl.def( pybind11::init( [](){ return new aaaa::T(); } ) );\n",
    "\t\tcl.def( pybind11::init( [](aaaa::T const &o){ return new aaaa::T(o); } ) );\n",
    "\n",
    "\t\tcl.def(\"__str__\", [](aaaa::T const &o) -> std::string { std::ostringstream s; using namespace aaaa; s << o; return s.str(); } );\n",
    "\t}\n",
    "}\n",
    "\n",
    "\n",
    "// File: T12_insertion_operator_2.cpp\n",
    "#include <T12.insertion_operator.hpp> // A1\n",
    "#include <T12.insertion_operator.hpp> // bbbb::operator<<\n",
    "#include <ios> // std::_Ios_Seekdir\n",
    "#include <locale> // std::locale\n",
    "#include <ostream> // std::basic_ostream\n",
    "#include <sstream> // __str__\n",
    "#include <streambuf> // std::basic_streambuf\n",
    "#include <string> // std::char_traits\n",
    "\n"] ++
   casters ++
   ["\n",
    "void bind_T12_insertion_operator_2(std::function< pybind11::module &(std::string const &namespace_) > &M)\n",
    "{\n",
    "\t{ // A1 file:T12.insertion_operator.hpp line:\n",
    "\t\tpybind11::class_<A1, std::shared_ptr<A1>> cl(M(\"\"), \"A1\", \"\");\n",
    "\t\tcl.def( pybind11::init( [](){ return new A1(); } ) );\n",
    "\t\tcl.def_readwrite(\"a\", &A1::a);\n",
    "\n",
    "\t\tcl.def(\"__str__\", [](A1 const &o) -> std::string { std::ostringstream s; using namespace bbbb; s << o; return s.str(); } );\n",
    "\t}\n",
    "}\n",
    "\n",
    "\n",
    "// File: T12_insertion_operator_3.cpp\n",
    "#include <T12.insertion_operator.hpp> // bbbb::B\n",
    "#include <T12.insertion_operator.hpp> // bbbb::B2\n",
    "#include <T12.insertion_operator.hpp> // bbbb::cccc::operator<<\n",
    "#include <T12.insertion_operator.hpp> // bbbb::operator<<\n",
    "#include <ios> // std::_Ios_Seekdir\n",
    "#include <locale> // std::locale\n",
    "#include <ostream> // std::basic_ostream\n",
    "#include <sstream> // __str__\n",
    "#include <streambuf> // std::basic_streambuf\n",
    "#include <string> // std::char_traits\n",
    "\n"] ++
   casters ++
   ["\n",
    "void bind_T12_insertion_operator_3(std::function< pybind11::module &(std::string const &namespace_) > &M)\n",
    "{\n",
    "\t{ // bbbb::B file:T12.insertion_operator.hpp line:\n",
    "\t\tpybind11::class_<bbbb::B, std::shared_ptr<bbbb::B>> cl(M(\"bbbb\"), \"B\", \"\");\n",
    "\t\tcl.def( pybind11::init( [](){ return new bbbb::B(); } ) );\n",
    "\t\tcl.def( pybind11::init( [](bbbb::B const &o){ return new bbbb::B(o); } ) );\n",
    "\n",
    "\t\tcl.def(\"__str__\", [](bbbb::B const &o) -> std::string { std::ostringstream s; using namespace bbbb::cccc; s << o; return s.str(); } );\n",
    "\t}\n",
    "\t{ // bbbb::B2 file:T12.insertion_operator.hpp line:\n",
    "\t\tpybind11::class_<bbbb::B2, std::shared_ptr<bbbb::B2>> cl(M(\"bbbb\"), \"B2\", \"\");\n",
    "\t\tcl.def( pybind11::init( [](){ return new bbbb::B2(); } ) );\n",
    "\n",
    "\t\tcl.def(\"__str__\", [](bbbb::B2 const &o) -> std::string { std::ostringstream s; using namespace bbbb; s << o; return s.str(); } );\n",
    "\t}\n",
    "}\n",
    "\n",
    "\n",
    "// File: T12_insertion_operator_4.cpp\n",
    "#include <T12.insertion_operator.hpp> // bbbb::cccc::C\n",
    "#include <T12.insertion_operator.hpp> // bbbb::cccc::operator<<\n",
    "#include <ios> // std::_Ios_Seekdir\n",
    "#include <locale> // std::locale\n",
    "#include <ostream> // std::basic_ostream\n",
    "#include <sstream> // __str__\n",
    "#include <streambuf> // std::basic_streambuf\n",
    "#include <string> // std::char_traits\n",
    "\n"] ++
   casters ++
   ["\n",
    "void bind_T12_insertion_operator_4(std::function< pybind11::module &(std::string const &namespace_) > &M)\n",
    "{\n",
    "\t{ // bbbb::cccc::C file:T12.insertion_operator.hpp line:\n",
    "\t\tpybind11::class_<bbbb::cccc::C, std::shared_ptr<bbbb::cccc::C>> cl(M(\"bbbb::cccc\"), \"C\", \"\");\n",
    "\t\tcl.def( pybind11::init( [](){ return new bbbb::cccc::C(); } ) );\n",
    "\n",
    "\t\tcl.def(\"__str__\", [](bbbb::cccc::C const &o) -> std::string { std::ostringstream s; using namespace bbbb::cccc; s << o; return s.str(); } );\n",
    "\t}\n",
    "}\n",
    "\n",
    "\n"] ++
   moduleHead ++
   ["\n",
    "void bind_T12_insertion_operator(std::function< pybind11::module &(std::string const &namespace_) > &M);\n",
    "void bind_T12_insertion_operator_1(std::function< pybind11::module &(std::string const &namespace_) > &M);\n",
    "void bind_T12_insertion_operator_2(std::function< pybind11::module &(std::string const &namespace_) > &M);\n",
    "void bind_T12_insertion_operator_3(std::function< pybind11::module &(std::string const &namespace_) > &M);\n",
    "void bind_T12_insertion_operator_4(std::function< pybind11::module &(std::string const &namespace_) > &M);\n",
    "\n",
    "\n",
    "PYBIND11_MODULE(T12_insertion_operator, root_module) {\n",
    "\troot_module.doc() = \"T12_insertion_operator module\";\n",
    "\n"] ++
   moduleMiddle ++
   ["\t\t{\"\", \"aaaa\"},\n",
    "\t\t{\"\", \"bbbb\"},\n",
    "\t\t{\"bbbb\", \"cccc\"},\n"] ++
   moduleEnd ++
   ["\n",
    "\tbind_T12_insertion_operator(M);\n",
    "\tbind_T12_insertion_operator_1(M);\n",
    "\tbind_T12_insertion_operator_2(M);\n",
    "\tbind_T12_insertion_operator_3(M);\n",
    "\tbind_T12_insertion_operator_4(M);\n",
    "\n",
    "}\n",
    "\n",
    "// Source list file: TEST/T12_insertion_operator.sources\n",
    "// T12_insertion_operator.cpp\n",
    "// T12_insertion_operator.cpp\n",
    "// T12_insertion_operator_1.cpp\n",
    "// T12_insertion_operator_2.cpp\n",
    "// T12_insertion_operator_3.cpp\n",
    "// T12_insertion_operator_4.cpp\n",
    "\n",
    "// Modules list file: TEST/T12_insertion_operator.modules\n",
    "// aaaa bbbb bbbb.cccc \n"]

#guard (output c!"T12_insertion_operator" E visits).map String.ofList = some (String.join expected)

end Binder.Conform.T12i
