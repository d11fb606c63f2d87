import Verif.Conform.Base

/-! # Conformance: `/repo/test/T07.class.match_args.hpp`, a field of a standard type -/

namespace Binder.Conform.T07m
open Binder Cxx

/-- The header as included. -/
def h := c!"<T07.class.match_args.hpp>"

def classes : List Record := [record h [] c!"MatchArgs" [field c!"MatchArgs" c!"__match_args__" (.const (.sugar 0 (.record 1))), field c!"MatchArgs" c!"var1" tInt, field c!"MatchArgs" c!"var2" tInt,
    defaultCtor h c!"MatchArgs" 0 c!"MatchArgs", copyCtor h c!"MatchArgs" 0 c!"MatchArgs"],
  { record c!"<tuple>" c!"std::" c!"tuple" [] with targs := some [⟨c!"<std::basic_string<char>, std::basic_string<char>>", .pack 2⟩] }]

def visits : List Visit := [.cls 0]

def E : Env := env { namespacesToBind := [c!""] } classes [] [c!"class MatchArgs", c!"class std::tuple<class std::basic_string<char>, class std::basic_string<char> >"] [] [c!"std::tuple<std::string, std::string>"]

/-- `/repo/test/T07.class.match_args.ref.cpp`. -/
def expected : List String :=
  ["// File: T07_class_match_args.cpp\n",
    "#include <T07.class.match_args.hpp> // MatchArgs\n",
    "#include <sstream> // __str__\n",
    "\n"] ++
   casters ++
   ["\n",
    "void bind_T07_class_match_args(std::function< pybind11::module &(std::string const &namespace_) > &M)\n",
    "{\n",
    "\t{ // MatchArgs file:T07.class.match_args.hpp line:\n",
    "\t\tpybind11::class_<MatchArgs, std::shared_ptr<MatchArgs>> cl(M(\"\"), \"MatchArgs\", \"\");\n",
    "\t\tcl.def( pybind11::init( [](){ return new MatchArgs(); } ) );\n",
    "\t\tcl.def( pybind11::init( [](MatchArgs const &o){ return new MatchArgs(o); } ) );\n",
    "\t\tcl.def_readonly(\"__match_args__\", &MatchArgs::__match_args__);\n",
    "\t\tcl.def_readwrite(\"var1\", &MatchArgs::var1);\n",
    "\t\tcl.def_readwrite(\"var2\", &MatchArgs::var2);\n",
    "\t}\n",
    "}\n",
    "\n",
    "\n"] ++
   moduleHead ++
   ["\n",
    "void bind_T07_class_match_args(std::function< pybind11::module &(std::string const &namespace_) > &M);\n",
    "\n",
    "\n",
    "PYBIND11_MODULE(T07_class_match_args, root_module) {\n",
    "\troot_module.doc() = \"T07_class_match_args module\";\n",
    "\n"] ++
   moduleMiddle ++
   moduleEnd ++
   ["\n",
    "\tbind_T07_class_match_args(M);\n",
    "\n",
    "}\n",
    "\n",
    "// Source list file: TEST/T07_class_match_args.sources\n",
    "// T07_class_match_args.cpp\n",
    "// T07_class_match_args.cpp\n",
    "\n",
    "// Modules list file: TEST/T07_class_match_args.modules\n",
    "// \n"]

#guard (output c!"T07_class_match_args" E visits).map String.ofList = some (String.join expected)

end Binder.Conform.T07m
