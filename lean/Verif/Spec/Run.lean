import Verif.Model.Run
import Verif.Spec.Context

/-!
# Specification: what a run binds, and where the bindings are

The decisions for single declarations (`functionBindable`, `classBindable`, `skipQuery`, ...) and the texts of single bindings
(`functionCode`, `classOutput`, `enumCode`) are those of the models; the properties C40 to C68 are about them.
-/

namespace Binder.Spec

open Cxx

/-- Under which name a declaration counts as the same as another one. -/
def identOf (E : Env) : Visit → Str
  | .fn F => functionQualifiedName E F
  | .cls i => classQualifiedName E (E.cls i)
  | .enm i => (E.enumD i).qname

/-- The C++ namespace, whose Python module holds the binding. -/
def namespaceOf (E : Env) : Visit → Str
  | .fn F => nsOf E F.qname F.name
  | .cls i => nsOf E (E.cls i).qname (E.cls i).name
  | .enm i => nsOf E (E.enumD i).qname (E.enumD i).name

/-- The name of the type that a declaration defines. -/
def typeNameOf (E : Env) : Visit → Option Str
  | .fn _ => none
  | .cls i => some (typeNameOfRecord E i)
  | .enm i => some (typeNameOfEnum E i)

/-- The names of the types that the binding of a declaration needs (C57, C61). -/
def requestsOf (E : Env) : Visit → List Str
  | .fn F => bindFunctionRequests E F
  | .cls i => (classOutput E i).requests
  | .enm _ => []

/-- The statements that bind a declaration. -/
def bindingOf (E : Env) : Visit → Str
  | .fn F => functionCode E F
  | .cls i => (classOutput E i).code
  | .enm i => enumCode E (E.enumD i)

/-- The callback structure a class needs. -/
def prefixOf (E : Env) : Visit → Str
  | .cls i => (classOutput E i).pre
  | _ => []

/-- A declaration that can be bound for itself: no class member, and bindable. -/
def Standalone (E : Env) : Visit → Prop
  | .fn F => F.method = none ∧ functionBindable E F = true
  | .cls i => (E.cls i).outer = none ∧ classBindable E i = true
  | .enm i => (E.enumD i).outer = none ∧ (E.enumD i).isInstanceMember = false

/-- For an enumeration it is tested later whether it can be bound. -/
def CanBind (E : Env) : Visit → Prop
  | .enm i => enumBindable (E.enumD i) = true ∧ bannedDecl E (E.enumD i).qname = false
  | _ => True

/-- Types that pybind11 converts itself. -/
def Converted (E : Env) : Visit → Prop
  | .fn F => builtinDecl E F.qname = true
  | .cls i => builtinDecl E (E.cls i).qname = true
  | .enm i => builtinDecl E (E.enumD i).qname = true

/-- Of the declarations with the same name, the first one. -/
def firstOfName (E : Env) : List Visit → List Visit
  | [] => []
  | v :: vs => v :: (firstOfName E vs).filter (fun w => identOf E w ≠ identOf E v)

open Classical in
/-- The declarations of the unit that are considered: those that can be bound for themselves, redeclarations left out. -/
noncomputable def considered (U : TransUnit) : List Visit := firstOfName U.E (U.visits.filter fun v => Standalone U.E v)

/-- Nothing speaks against a binding: it is possible, not unwanted, and not superfluous. -/
structure Allowed (E : Env) (v : Visit) : Prop where
  possible : CanBind E v
  notSkipped : skipQuery E v = .ok false
  notConverted : ¬ Converted E v

/-- What a run binds: the declarations outside of system headers that the user asks for, and the classes and enumerations that other
bound declarations need. If several declarations define types of the same name, the last of them is meant. -/
inductive Reached (U : TransUnit) : Visit → Prop where
  | asked {v} : v ∈ considered U → Allowed U.E v → U.inSystem v = false → bindQuery U.E v = .ok true → Reached U v
  | needed {w v t} : Reached U w → t ∈ requestsOf U.E w →
      (∃ before after, considered U = before ++ v :: after ∧ typeNameOf U.E v = some t ∧ ∀ x ∈ after, typeNameOf U.E x ≠ some t) →
      Allowed U.E v → Reached U v

/-- One entry of a generated function: the binding of a declaration, the call of a function the user wrote for a namespace, or a trace. -/
inductive Stmt where
  | binds (v : Visit)
  | calls (fn ns : Str)
  | traces (n : Nat) (name : Str)

/-- The C++ text. -/
def Stmt.text (E : Env) : Stmt → Str
  | .binds v => bindingOf E v
  | .calls fn ns => c!"\n\t" ++ fn ++ c!"(M(\"" ++ ns ++ c!"\"));\n"
  | .traces n name => c!"\tstd::cout << \"B" ++ natStr n ++ c!"_[" ++ name ++ c!"]\" << std::endl;\n"

/-- The declaration bound. -/
def Stmt.bound : Stmt → Option Visit
  | .binds v => some v
  | _ => none

/-- A generated source: its name, the include lines and the like, and its function. -/
structure Source where
  name : Str
  head : Str
  fn : Str
  stmts : List Stmt

/-- The declarations bound in the source. -/
def Source.bound (s : Source) : List Visit := s.stmts.filterMap Stmt.bound

/-- The text: the callback structures of the bound classes stand before the function. -/
def Source.text (E : Env) (s : Source) : Str :=
  s.head ++ s.bound.flatMap (prefixOf E) ++ c!"void " ++ s.fn ++
    "(std::function< pybind11::module &(std::string const &namespace_) > &M)".toList ++ c!"\n{\n" ++ s.stmts.flatMap (Stmt.text E) ++ c!"}\n"

/-- The root module calls the functions of the sources in order, and no others. -/
def CallsAll (root : Str) (srcs : List Source) : Prop :=
  ∃ before, root = before ++ srcs.flatMap (fun s => c!"\t" ++ s.fn ++ c!"(M);\n") ++ c!"\n}\n" ∧
    "\t//pybind11::class_<std::shared_ptr<void>>(M(\"\"), \"_encapsulated_data_\");\n\n".toList <:+ before

/-- The files `fs'` are those of `fs` with the generated sources and the root module written. -/
def Written (E : Env) (o : Opts) (fs fs' : FS) (srcs : List Source) : Prop :=
  if o.single then
    ∃ root rest, CallsAll root srcs ∧
      fs'.files (rootPath o) = some (srcs.flatMap (fun s => c!"// File: " ++ s.name ++ c!"\n" ++ s.text E ++ c!"\n\n") ++ root ++ rest) ∧
      ∀ x, x ≠ rootPath o → fs'.files x = fs.files x
  else
    (∀ s ∈ srcs, fs'.files (o.pre ++ c!"/" ++ s.name) = some (s.text E)) ∧
    (∃ root, CallsAll root srcs ∧ fs'.files (rootPath o) = some root) ∧
    ∀ x, x ≠ rootPath o → x ≠ o.pre ++ c!"/" ++ o.root ++ c!".sources" → x ≠ o.pre ++ c!"/" ++ o.root ++ c!".modules" →
      (∀ s ∈ srcs, x ≠ o.pre ++ c!"/" ++ s.name) → fs'.files x = fs.files x

/-- No two generated sources have the same name: the option `--flat` or `--single-file` is used, or no header path looks like another one
followed by `_` and a number (`/` counting as `_`), and none is that of the root module. -/
def DistinctNames (U : TransUnit) (o : Opts) : Prop :=
  o.single = true ∨ o.flat = true ∨
  let key := fun v : Visit => fileNamePrefix (U.decl v).incl (namespaceOf U.E v)
  let flatKey := fun v : Visit => replaceAll (key v) c!"/" c!"_"
  (∀ v ∈ U.visits, ∀ n : Nat, key v ++ (if n ≠ 0 then c!"_" ++ natStr n else []) ≠ o.root) ∧
  (∀ v ∈ U.visits, ∀ w ∈ U.visits, ∀ k, 0 < k → flatKey v ≠ flatKey w ++ c!"_" ++ natStr k) ∧
  (∀ v ∈ U.visits, ∀ w ∈ U.visits, flatKey v = flatKey w → key v = key w)

/-- What a run that returns leaves behind: the generated sources bind exactly the declarations reached, each once, and call functions of
the user only for namespaces with such declarations. Namespaces with a binder of their own are left to it. -/
structure Generated (U : TransUnit) (o : Opts) (fs fs' : FS) (srcs : List Source) : Prop where
  written : Written U.E o fs fs' srcs
  once : (srcs.flatMap Source.bound).Nodup
  exactly : ∀ v, v ∈ srcs.flatMap Source.bound ↔ Reached U v ∧ U.E.cfg.binderForNamespaces (namespaceOf U.E v) = none
  calls : ∀ s ∈ srcs, ∀ f ns, Stmt.calls f ns ∈ s.stmts →
    (U.E.cfg.binderForNamespaces ns = some f ∨ U.E.cfg.addOnBinderForNamespaces ns = some f) ∧ ∃ v, Reached U v ∧ namespaceOf U.E v = ns

/-- The classes that the binding of a class registers, in the order of the statements: itself, then its public nested classes
(`C61_class_statement`, `C64_nested`). An external binder registers the class it is for. -/
def registersF (E : Env) : Nat → Nat → List Nat
  | 0, _ => []
  | n + 1, i =>
    if builtinDecl E (E.cls i).qname then []
    else if (E.cfg.binders (stdName E (E.cls i).qname)).isSome then [i]
    else (if (E.cls i).isAnonymous then [] else [i]) ++ (nestedBound E (E.cls i)).flatMap (registersF E n)

/-- The classes that the binding of a declaration registers. -/
def registers (E : Env) : Visit → List Nat
  | .cls i => registersF E (E.nestRank i + 1) i
  | _ => []

/-- The classes registered when the module is imported, in order. -/
def registered (E : Env) (srcs : List Source) : List Nat := (srcs.flatMap Source.bound).flatMap (registers E)

/-- The declaration as a node of the search for headers. -/
def nodeOf : Visit → Node
  | .fn F => .fn F
  | .cls i => .cls i
  | .enm i => .enm i

end Binder.Spec
