import Verif.Model.Run
import Verif.Model.Simplify
import Verif.Lemmas.Simplify

/-!
# Conformance: tools to describe the headers of `/repo/test`

The modules in this directory compare the model with the results of the program that its authors recorded in `/repo/test/*.ref.cpp`. Each
gives the declarations of a header as clang reports them and checks that the model writes the recorded file. These are tests of the
model, not proofs of properties.
-/

namespace Binder.Conform

open Binder Cxx

/-- The names of arithmetic types. -/
def basicNames : List Str :=
  [c!"void", c!"int", c!"char", c!"float", c!"double", c!"_Bool", c!"long", c!"unsigned int", c!"unsigned long", c!"long long", c!"short",
   c!"unsigned char"]

def tVoid : Ty := .basic 0
def tInt : Ty := .basic 1
def tChar : Ty := .basic 2
def tFloat : Ty := .basic 3
def tDouble : Ty := .basic 4
def tBool : Ty := .basic 5
def tLong : Ty := .basic 6
def tUInt : Ty := .basic 7
def tULong : Ty := .basic 8
def tLongLong : Ty := .basic 9

/-- A type and its declarator. -/
def glue (name declarator : Str) : Str := if declarator.isEmpty then name else name ++ c!" " ++ declarator

/-- `QualType::getAsString()`. `record` and `enum` give the name with the keyword, `sugar` the name of a typedef. -/
def printTy (record enum sugar : Nat → Str) : Ty → Str → Str
  | .basic k, d => glue (basicNames.getD k []) d
  | .dep k, d => glue (sugar k) d
  | .record i, d => glue (record i) d
  | .enum i, d => glue (enum i) d
  | .sugar k _, d => glue (sugar k) d
  | .const (.ptr t), d => printTy record enum sugar t (c!"*const" ++ if d.isEmpty then [] else c!" " ++ d)
  | .const t, d => c!"const " ++ printTy record enum sugar t d
  | .ptr (.fn r ps), d => printTy record enum sugar r (c!"(*" ++ d ++ c!")(" ++ printAll record enum sugar ps ++ c!")")
  | .ptr t, d => printTy record enum sugar t (c!"*" ++ d)
  | .lref (.fn r ps), d => printTy record enum sugar r (c!"(&" ++ d ++ c!")(" ++ printAll record enum sugar ps ++ c!")")
  | .lref t, d => printTy record enum sugar t (c!"&" ++ d)
  | .rref t, d => printTy record enum sugar t (c!"&&" ++ d)
  | .arr t, d => printTy record enum sugar t (d ++ c!"[]")
  | .fn r ps, d => printTy record enum sugar r (d ++ c!"(" ++ printAll record enum sugar ps ++ c!")")
where
  printAll (record enum sugar : Nat → Str) : List Ty → Str
    | [] => c!"void"
    | [t] => printTy record enum sugar t []
    | t :: ts => printTy record enum sugar t [] ++ c!", " ++ printAll record enum sugar ts

/-- A free function in namespace `ns` (with `::` at the end). -/
def func (incl ns name : Str) (ret : Ty) (params : List Param) : Func :=
  { ptr := 0, name := name, qname := ns ++ name, incl := incl, line := [], comment := [], ret := ret, params := params,
    isOperator := false, isDeleted := false, isVariadic := false, isConversion := false, templated := .nonTemplate, targs := none,
    method := none }

/-- A public member function of class `parent`. -/
def method (incl cls : Str) (parent : Nat) (name : Str) (ret : Ty) (params : List Param) (access : Access := .pub) (isConst isStatic isVirtual
    isPure : Bool := false) (kind : MethodKind := .ordinary) : Func :=
  { func incl (cls ++ c!"::") name ret params with
    method := some { parent := parent, access := access, kind := kind, isStatic := isStatic, isConst := isConst, isVirtual := isVirtual,
                     isPure := isPure, isFinal := false, isCopyAssign := false, exceptionSpec := 0 } }

/-- A constructor. -/
def ctor (incl cls : Str) (parent : Nat) (name : Str) (params : List Param) (access : Access := .pub) (isDefault isMove : Bool := false)
    (copy : Option Bool := none) : Func :=
  method incl cls parent name tVoid params access (kind := .ctor isDefault isMove copy)

/-- A defaulted default constructor. -/
def defaultCtor (incl cls : Str) (parent : Nat) (name : Str) : Member := .method (ctor incl cls parent name [] (isDefault := true))

/-- A copy constructor. -/
def copyCtor (incl cls : Str) (parent : Nat) (name : Str) : Member :=
  .method (ctor incl cls parent name [⟨[], .lref (.const (.record parent)), false⟩] (copy := some true))

/-- A copy assignment operator. -/
def assign (incl cls : Str) (parent : Nat) : Member :=
  .method ({ method incl cls parent c!"operator=" (.lref (.record parent)) [⟨[], .lref (.const (.record parent)), false⟩] with
    isOperator := true,
    method := some { parent := parent, access := .pub, kind := .ordinary, isStatic := false, isConst := false, isVirtual := false,
                     isPure := false, isFinal := false, isCopyAssign := true, exceptionSpec := 0 } })

/-- A class definition in namespace `ns` (with `::` at the end). -/
def record (incl ns name : Str) (members : List Member := []) (bases : List Base := []) : Record :=
  { name := name, qname := ns ++ name, incl := incl, line := [], comment := [], targs := none, access := .none, outer := none,
    isComplete := true, isDependent := false, inAnonymousNamespace := false, hasNameForLinkage := true, isAnonymous := false,
    hasInstantiationPoint := false, isAbstract := false, isFinal := false, hasDefaultConstructor := true,
    needsImplicitDefaultConstructor := true, isFirstDecl := true, isThisDefinition := true, definition := none, dtorAccess := none,
    bases := bases, members := members }

/-- An enumeration. -/
def enumD (incl ns name : Str) (values : List (Str × Str)) (isScoped classTag : Bool := false) (access : Access := .none) (outer : Option Nat := none) :
    EnumD :=
  { ptr := 0, name := name, qname := ns ++ name, incl := incl, line := [], comment := [], access := access, outer := outer,
    isInstanceMember := false, isComplete := true, isScoped := isScoped, isScopedUsingClassTag := classTag, enumerators := values,
    definitionIncl := some incl }

/-- A public field. -/
def field (cls name : Str) (ty : Ty) (access : Access := .pub) : Member :=
  .field { name := name, qname := cls ++ c!"::" ++ name, ty := ty, access := access, isAnonymous := false }

/-- A program. `names` are the names of the classes as clang prints them as types. -/
def env (cfg : Config) (classes : List Record) (enums : List EnumD) (recordNames enumNames sugarNames : List Str) : Env :=
  { cls := fun i => classes.getD i (record [] [] [])
    enumD := fun i => enums.getD i (enumD [] [] [] [])
    tyName := fun t => printTy (recordNames.getD · []) (enumNames.getD · []) (sugarNames.getD · []) t []
    simplify := simplifyQuick
    cfg := cfg
    opts := ⟨false, true, false, true, true⟩
    holder := c!"std::shared_ptr"
    baseRank := fun _ => 10
    argRank := fun _ => 10
    nestRank := fun _ => 10 }

/-- The options of `self-test.py`. -/
def opts (root : Str) : Opts :=
  { root := root, pre := c!"TEST", flat := false, single := true, trace := false, annotate := true, maxLen := 1024 * 16, stl := false }

/-- The file the run writes. -/
def output (root : Str) (E : Env) (visits : List Visit) : Option Str :=
  match TransUnit.runF { env := E, visits := visits, inSystem := fun _ => false, depth := 100 } 100 (opts root) ⟨fun _ => none, fun x => x == c!"TEST", []⟩ with
  | some (.done fs) => fs.files (c!"TEST/" ++ root ++ c!".cpp")
  | _ => none

/-! ## Text that every recorded file has -/

def casters : List String :=
  ["#include <functional>\n",
   "#include <pybind11/pybind11.h>\n",
   "#include <string>\n",
   "\n",
   "#ifndef BINDER_PYBIND11_TYPE_CASTER\n",
   "\t#define BINDER_PYBIND11_TYPE_CASTER\n",
   "\tPYBIND11_DECLARE_HOLDER_TYPE(T, std::shared_ptr<T>, false)\n",
   "\tPYBIND11_DECLARE_HOLDER_TYPE(T, T*, false)\n",
   "\tPYBIND11_MAKE_OPAQUE(std::shared_ptr<void>)\n",
   "#endif\n"]

def moduleHead : List String :=
  ["#include <map>\n",
   "#include <algorithm>\n",
   "#include <functional>\n",
   "#include <memory>\n",
   "#include <stdexcept>\n",
   "#include <string>\n",
   "\n",
   "#include <pybind11/pybind11.h>\n",
   "\n",
   "using ModuleGetter = std::function< pybind11::module & (std::string const &) >;\n"]

def moduleMiddle : List String :=
  ["\tstd::map <std::string, pybind11::module> modules;\n",
   "\tModuleGetter M = [&](std::string const &namespace_) -> pybind11::module & {\n",
   "\t\tauto it = modules.find(namespace_);\n",
   "\t\tif( it == modules.end() ) throw std::runtime_error(\"Attempt to access pybind11::module for namespace \" + namespace_ + \" before it was created!!!\");\n",
   "\t\treturn it->second;\n",
   "\t};\n",
   "\n",
   "\tmodules[\"\"] = root_module;\n",
   "\n",
   "\tstatic std::vector<std::string> const reserved_python_words {\"nonlocal\", \"global\", };\n",
   "\n",
   "\tauto mangle_namespace_name(\n",
   "\t\t[](std::string const &ns) -> std::string {\n",
   "\t\t\tif ( std::find(reserved_python_words.begin(), reserved_python_words.end(), ns) == reserved_python_words.end() ) return ns;\n",
   "\t\t\treturn ns+'_';\n",
   "\t\t}\n",
   "\t);\n",
   "\n",
   "\tstd::vector< std::pair<std::string, std::string> > sub_modules {\n"]

def moduleEnd : List String :=
  ["\t};\n",
   "\tfor(auto &p : sub_modules ) modules[ p.first.empty() ? p.second :  p.first+\"::\"+p.second ] = modules[p.first].def_submodule( mangle_namespace_name(p.second).c_str(), (\"Bindings for \" + p.first + \"::\" + p.second + \" namespace\").c_str() );\n",
   "\n",
   "\t//pybind11::class_<std::shared_ptr<void>>(M(\"\"), \"_encapsulated_data_\");\n"]

end Binder.Conform
