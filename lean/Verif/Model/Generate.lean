import Verif.Basic.Str
import Verif.Basic.StrSet
import Verif.Basic.Loop
import Verif.Model.Config
import Verif.Model.Files
import Verif.Model.Context

/-!
# Model of `source/context.cpp`, part 2: writing the generated code

Line numbers refer to `/repo/source/context.cpp` unless another file is named.
-/

namespace Binder

/-- `++i` on `uint`. -/
def uintInc (i : Nat) : Nat := (i + 1) % 2 ^ 32

/-- `--i` on `uint`. -/
def uintDec (i : Nat) : Nat := (i + 2 ^ 32 - 1) % 2 ^ 32

/-- The command line options and parameters that `Context::generate` uses (options.hpp; main.cpp:229-262):
`--root-module`, `--prefix`, `--flat`, `--single-file`, `--trace`, `--annotate-includes`, `--max-file-size`,
`--include-pybind11-stl`. -/
structure Opts where
  root : Str
  pre : Str
  flat : Bool
  single : Bool
  trace : Bool
  annotate : Bool
  maxLen : Nat
  stl : Bool

/-- One addition to the variable `code` of `Context::generate`. -/
inductive Piece where
  /-- the call of a `+binder_for_namespace` function `f`, line 386 -/
  | nsCall (f ns : Str)
  /-- the call of an `+add_on_binder_for_namespace` function `f`, line 392 -/
  | addOn (f ns : Str)
  /-- the trace statement number `n` for the declaration `id`, line 425 -/
  | trace (n : Nat) (id : Str)
  /-- the code of a bound declaration, line 431 -/
  | code (b : SortItem)
deriving DecidableEq

/-- The text of a piece: format strings of lines 386, 392 and 498. -/
def Piece.text : Piece → Str
  | .nsCall f ns => c!"\n\t" ++ f ++ c!"(M(\"" ++ ns ++ c!"\"));\n"
  | .addOn f ns => c!"\n\t" ++ f ++ c!"(M(\"" ++ ns ++ c!"\"));\n"
  | .trace n id => c!"\tstd::cout << \"B" ++ natStr n ++ c!"_[" ++ id ++ c!"]\" << std::endl;\n"
  | .code b => b.code

/-- The variable `code`: the concatenation of the pieces. -/
def codeText (ps : List Piece) : Str := ps.flatMap Piece.text

/-- One generated file (lines 348-444) before it is turned into text: name without and with `.cpp`, function name, namespace,
collected includes, `prefix_code` and `code`. -/
structure OutFile where
  name : Str
  fn : Str
  ns : Str
  includes : List Str
  pre : Str
  body : List Piece
deriving DecidableEq

/-- Variables of the inner loop, lines 395-434: the index `i` and `trace_counter + 1` (`trace_counter` starts at -1; overflow of
the `int` after 2^31 trace lines is not modelled), and what the loop adds to. -/
structure Fill where
  i : Nat
  traced : Nat
  includes : List Str
  pre : Str
  body : List Piece
deriving DecidableEq

/-- The include line added with every trace statement, line 426. -/
def traceInclude (o : Opts) : Str := if o.annotate then c!"<iostream> // --trace" else c!"<iostream>"

/-- Body of the inner loop, lines 418-433 (`skip` is the `continue` of line 418), then `++i`.
The includes added by `add_relevant_includes` are `Decl.includes`. -/
def fillBody (o : Opts) (skip : Bool) (b : SortItem) (s : Fill) : Fill :=
  if skip then { s with i := uintInc s.i }
  else
    let s := { s with pre := s.pre ++ b.pre }
    let s := if o.trace then
        { s with body := s.body ++ [.trace s.traced b.decl.ident], traced := s.traced + 1,
                 includes := s.includes ++ [traceInclude o] }
      else s
    let s := if b.code.length != 0 then
        { s with body := s.body ++ [.code b], includes := s.includes ++ b.decl.includes }
      else s
    { s with i := uintInc s.i }

/-- The inner loop, lines 395-434; the list is `binders` from position `i` on. -/
def fill (o : Opts) (ns : Str) (skip : Bool) : List SortItem → Fill → Fill
  | [], s => s
  | b :: bs, s =>
    if (codeText s.body).length < o.maxLen ∧ ns = b.decl.ns then fill o ns skip bs (fillBody o skip b s) else s

/-- State of the outer loop, lines 345-450. -/
structure GenState where
  i : Nat
  fileNames : Str → Nat
  entrance : Str → Nat
  traced : Nat
  files : List OutFile

/-- Before the outer loop, lines 329-345. -/
def GenState.init : GenState := ⟨0, fun _ => 0, fun _ => 0, 0, []⟩

/-- `m[k] += 1` on a map of counters. -/
def bump (m : Str → Nat) (k : Str) : Str → Nat := fun x => if x = k then m x + 1 else m x

/-- The key `np` into `file_names`, lines 350-358. -/
def fileKey (o : Opts) (b : SortItem) : Str :=
  if o.flat then o.root ++ c!"_" else fileNamePrefix b.decl.incl b.decl.ns

/-- `file_name` without the extension, lines 350-358; `count` is `file_names[np]`. -/
def fileStem (o : Opts) (np : Str) (count : Nat) : Str :=
  if o.flat then np ++ natStr count else np ++ (if count != 0 then c!"_" ++ natStr count else [])

/-- `function_name`, line 361. -/
def functionName (stem : Str) : Str := c!"bind_" ++ replaceAll stem c!"/" c!"_"

/-- What `code` holds before the inner loop, lines 384-393; `first` is `namespace_entrance[namespace_] == 0`. -/
def startBody (c : Config) (ns : Str) (first : Bool) : List Piece :=
  let code := match c.binderForNamespaces ns with
    | some f => if first then [Piece.nsCall f ns] else []
    | none => []
  match c.addOnBinderForNamespaces ns with
    | some f => if (codeText code).isEmpty then (if first then code ++ [Piece.addOn f ns] else code) else code
    | none => code

/-- Body of the outer loop, lines 345-450, ended by the `++i` of line 345; the result is the list of files written. -/
def genStep (c : Config) (o : Opts) (bs : List SortItem) (s : GenState) : GenState ⊕ List OutFile :=
  match bs[s.i]? with
  | none => .inr s.files
  | some b =>
    if b.code.isEmpty then .inl { s with i := uintInc s.i }
    else
      let np := fileKey o b
      let stem := fileStem o np (s.fileNames np)
      let ns := b.decl.ns
      let f := fill o ns (c.binderForNamespaces ns).isSome (bs.drop s.i)
        ⟨s.i, s.traced, c.namespaceIncludes ns, [], startBody c ns (s.entrance ns == 0)⟩
      let i := if f.i < bs.length then uintDec f.i else f.i
      .inl { i := uintInc i
             fileNames := bump s.fileNames np
             entrance := bump s.entrance ns
             traced := f.traced
             files := s.files ++ [⟨stem ++ c!".cpp", functionName stem, ns, f.includes, f.pre, f.body⟩] }

/-- `module_function_suffix`, line 141. -/
def functionSuffix : Str := "(std::function< pybind11::module &(std::string const &namespace_) > &M)".toList

/-- `module_header`, lines 127-139, with its arguments of line 444. -/
def moduleHeader (c : Config) (stl : Bool) : Str :=
  "\n#include <functional>\n".toList ++ "#include <".toList ++ c.pybind11IncludeFile ++ c!">" ++
  "\n#include <string>\n".toList ++ includesCode c stl ++
  "\n#ifndef BINDER_PYBIND11_TYPE_CASTER\n\t#define BINDER_PYBIND11_TYPE_CASTER\n\t".toList ++
  "PYBIND11_DECLARE_HOLDER_TYPE(T, ".toList ++ c.holderType ++ "<T>, false)".toList ++
  "\n\tPYBIND11_DECLARE_HOLDER_TYPE(T, T*, false)\n\t".toList ++
  "PYBIND11_MAKE_OPAQUE(".toList ++ c.holderType ++ "<void>)".toList ++ "\n#endif\n\n".toList

/-- The text of a generated file, line 444. -/
def OutFile.text (c : Config) (o : Opts) (f : OutFile) : Str :=
  generateIncludeDirectives c f.includes ++ moduleHeader c o.stl ++
  f.pre ++ c!"void " ++ f.fn ++ functionSuffix ++ c!"\n{\n" ++ codeText f.body ++ c!"}\n"

/-- `Context::create_all_nested_namespaces`: the inner `while` loop, lines 222-225; `fuel` bounds the number of iterations, the
length of `ns` suffices (theorem `C38_namespaces`). -/
def ancestors : Nat → Str → List Str
  | 0, _ => []
  | n + 1, ns => if ns.length != 0 then ns :: ancestors n (baseNamespace ns) else []

/-- `Context::create_all_nested_namespaces`, lines 214-232. -/
def allNestedNamespaces (bs : List SortItem) : List Str :=
  setOf (bs.flatMap fun b => if b.code.length != 0 then ancestors b.decl.ns.length b.decl.ns else [])

/-- The `sub_modules` table, lines 456-457; the elements of the set are never empty. -/
def subModules (namespaces : List Str) : List (Str × Str) :=
  (namespaces.filter (·.length != 0)).map fun n => (baseNamespace n, lastNamespace n)

/-- The variable `modules`, lines 458-461: written to the `.modules` file. -/
def modulesText (namespaces : List Str) : Str :=
  replaceAll (namespaces.flatMap fun n => n ++ c!" ") c!"::" c!"."

/-- The declarations of the bind functions, line 465. -/
def declsText (fns : List Str) : Str := fns.flatMap fun f => c!"void " ++ f ++ functionSuffix ++ c!";\n"

/-- The calls of the bind functions, line 466. -/
def callsText (fns : List Str) : Str := fns.flatMap fun f => c!"\t" ++ f ++ c!"(M);\n"

/-- `main_module_header`, lines 83-91: the part before the declarations of the bind functions. -/
def rootHead (c : Config) : Str :=
  "#include <map>\n#include <algorithm>\n#include <functional>\n#include <memory>\n#include <stdexcept>\n#include <string>\n\n".toList ++
  "#include <".toList ++ c.pybind11IncludeFile ++ c!">" ++
  "\n\nusing ModuleGetter = std::function< pybind11::module & (std::string const &) >;\n\n".toList

/-- `main_module_header`, lines 92-122: the part between the declarations and the calls of the bind functions. -/
def rootMiddle (o : Opts) (namespaces : List Str) : Str :=
  "\n\nPYBIND11_MODULE(".toList ++ o.root ++ ", root_module) {\n\troot_module.doc() = \"".toList ++ o.root ++
  " module\";\n\n\tstd::map <std::string, pybind11::module> modules;\n".toList ++
  "\tModuleGetter M = [&](std::string const &namespace_) -> pybind11::module & {\n".toList ++
  "\t\tauto it = modules.find(namespace_);\n\t\tif( it == modules.end() ) throw std::runtime_error(".toList ++
  "\"Attempt to access pybind11::module for namespace \" + namespace_ + \" before it was created!!!\");\n".toList ++
  "\t\treturn it->second;\n\t};\n\n\tmodules[\"\"] = root_module;\n\n".toList ++
  "\tstatic std::vector<std::string> const reserved_python_words {\"nonlocal\", \"global\", };\n\n".toList ++
  "\tauto mangle_namespace_name(\n\t\t[](std::string const &ns) -> std::string {\n".toList ++
  "\t\t\tif ( std::find(reserved_python_words.begin(), reserved_python_words.end(), ns) == reserved_python_words.end() ) return ns;\n".toList ++
  "\t\t\treturn ns+'_';\n\t\t}\n\t);\n\n\tstd::vector< std::pair<std::string, std::string> > sub_modules {\n".toList ++
  (subModules namespaces).flatMap (fun p => c!"\t\t{\"" ++ p.1 ++ c!"\", \"" ++ p.2 ++ c!"\"},\n") ++
  "\t};\n\tfor(auto &p : sub_modules ) modules[ p.first.empty() ? p.second :  p.first+\"::\"+p.second ] = ".toList ++
  "modules[p.first].def_submodule( mangle_namespace_name(p.second).c_str(), ".toList ++
  "(\"Bindings for \" + p.first + \"::\" + p.second + \" namespace\").c_str() );\n\n".toList ++
  "\t//pybind11::class_<std::shared_ptr<void>>(M(\"\"), \"_encapsulated_data_\");\n\n".toList

/-- The root module, line 472 with `main_module_header`, lines 83-125. -/
def rootText (c : Config) (o : Opts) (namespaces fns : List Str) : Str :=
  rootHead c ++ declsText fns ++ rootMiddle o namespaces ++ callsText fns ++ "\n}\n".toList

/-- The vector `sources`, lines 335 and 364. -/
def sourcesOf (o : Opts) (files : List OutFile) : List Str := (o.root ++ c!".cpp") :: files.map (·.name)

/-- The vector `binding_function_names`, line 365. -/
def functionNames (files : List OutFile) : List Str := files.map (·.fn)

/-- The content of the `.sources` file, line 488. -/
def sourcesText (o : Opts) (files : List OutFile) : Str := (sourcesOf o files).flatMap fun s => s ++ c!"\n"

/-- What is written to the root module file: with `--single-file` also the generated files (line 446) and, as comments, the two
lists (lines 478-485). -/
def rootFileText (c : Config) (o : Opts) (namespaces : List Str) (files : List OutFile) : Str :=
  if o.single then
    files.flatMap (fun f => c!"// File: " ++ f.name ++ c!"\n" ++ f.text c o ++ c!"\n\n") ++
    rootText c o namespaces (functionNames files) ++
    c!"\n// Source list file: " ++ (o.pre ++ c!"/" ++ o.root) ++ c!".sources\n" ++
    (sourcesOf o files).flatMap (fun s => c!"// " ++ s ++ c!"\n") ++
    c!"\n// Modules list file: " ++ (o.pre ++ c!"/" ++ o.root) ++ c!".modules\n// " ++ modulesText namespaces ++ c!"\n"
  else rootText c o namespaces (functionNames files)

/-! ## Files -/

/-- The file system as the program sees it: regular files with their content, directories, and the names of the files opened for
writing so far. Paths are compared as texts. -/
structure FS where
  files : Str → Option Str
  dirs : Str → Bool
  writes : List Str

/-- The directories `mkdir -p path` makes: the prefixes of `path` that end before a `/`, and `path`. -/
def dirChain (path : Str) : List Str :=
  ((List.range path.length).filter fun k => k != 0 && path[k]? == some '/').map (path.take ·) ++ [path]

/-- `system("mkdir -p " + path)`, util.cpp:137-138; `none` is a non-zero exit code, i.e. there is no path (without `--prefix`, for a file
without directories) or a component of the path is a file.
Simplification: `path` contains no characters that are special to the shell, and there are no permissions. -/
def mkdirP (fs : FS) (path : Str) : Option FS :=
  if path.isEmpty || (dirChain path).any (fun d => (fs.files d).isSome) then none
  else some { fs with dirs := fun d => fs.dirs d || (dirChain path).contains d }

/-- The directory of a file: the text before the last `/`. Every path made by the program has a `/` after the prefix (context.cpp:336,
util.cpp:140); the empty text is the root directory. -/
def parentDir (path : Str) : Str := (path.reverse.dropWhile (· != '/')).tail.reverse

/-- `std::ofstream f(name); f << text;`: the file is truncated or created; `none` is `f.fail()`, i.e. the name is a directory, or the
directory of the file does not exist. -/
def writeFile (fs : FS) (name text : Str) : Option FS :=
  if fs.dirs name || !fs.dirs (parentDir name) then none
  else some { fs with files := fun x => if x = name then some text else fs.files x, writes := fs.writes ++ [name] }

/-- The directory part of `update_source_file`, util.cpp:130-134. -/
def sourceDir (pre name : Str) : Str := (split name c!"/").dropLast.foldl (fun p d => p ++ (c!"/" ++ d)) pre

/-- `update_source_file(prefix, file_name, code)`, util.cpp:128-153; `none` is an exception. A file that cannot be read counts as
empty (lines 141-142). -/
def updateSourceFile (fs : FS) (pre name code : Str) : Option FS :=
  match mkdirP fs (sourceDir pre name) with
  | none => none
  | some fs =>
    let full := pre ++ c!"/" ++ name
    let old := (fs.files full).getD []
    if old != code then writeFile fs full code else some fs

/-- The `update_source_file` calls of one run, in order, line 447. -/
def updateAll (pre : Str) : FS → List (Str × Str) → Option FS
  | fs, [] => some fs
  | fs, (name, code) :: rest => match updateSourceFile fs pre name code with
    | none => none
    | some fs => updateAll pre fs rest

end Binder
