import Verif.Model.Includes
import Verif.Model.Generate

/-!
# Model of `source/main.cpp`: from the declarations clang reports to the files written

`Model/Context.lean` and `Model/Generate.lean` take the objects made for the declarations as given (`Decl`). Here they are made from the
declarations of a translation unit, with the queries and texts of the other models, and a whole run is put together. Line numbers refer to
`/repo/source/main.cpp` unless another file is named.
-/

namespace Binder

open Cxx

/-- A declaration passed to `VisitFunctionDecl`, `VisitCXXRecordDecl` or `VisitEnumDecl`, lines 111-182. -/
inductive Visit where
  | fn (F : Func)
  | cls (i : Nat)
  | enm (i : Nat)

/-- A translation unit: the declarations behind the pointers, the ones `RecursiveASTVisitor` comes to, in its order (with instances of
templates, line 109), and which of them are in system headers (binder.cpp:88-96). `depth` is recursion fuel for the collection of include
lines (see `C54_terminates`). -/
structure TransUnit where
  env : Env
  visits : List Visit
  inSystem : Visit → Bool
  depth : Nat

/-- `VisitFunctionDecl`, lines 113-122: the function passed to `Context::add_insertion_operator`. -/
def visitInsertion (E : Env) : Visit → Option Func
  | .fn F => if F.method.isSome || functionBindable E F then none
      else if F.isOperator && F.name == c!"operator<<" then some F else none
  | _ => none

/-- What the code generator sees when `Context::generate` starts: the insertion operators of the whole unit are known. -/
def TransUnit.E (U : TransUnit) : Env := { U.env with insertions := U.visits.filterMap (visitInsertion U.env) }

/-- The include lines `add_relevant_includes` adds for one object. Simplification: in one file the `IncludeSet` is shared by all objects;
by `C54_exact` the lines in it are then those of the objects one by one. -/
def includesOf (E : Env) (depth : Nat) (steps : List Step) : List Str :=
  match collectF E depth [] steps with
  | some s => s.includes
  | none => []

/-- A class as an element of `dependencies_`. -/
def recOf (E : Env) (i : Nat) : Rec := ⟨i, classQualifiedName E (E.cls i), builtinDecl E (E.cls i).qname⟩

/-- A `FunctionBinder`: function.cpp:494-497, 595-627. -/
def functionDecl (E : Env) (depth : Nat) (inSystem : Bool) (F : Func) : Decl where
  ident := functionQualifiedName E F
  ns := nsOf E F.qname F.name
  typeName := none
  record := none
  canBind := functionBindable E F
  builtin := builtinDecl E F.qname
  inSystem := inSystem
  skipAsked := answer (skipFunction E F)
  bindAsked := answer (bindFunctionAsked E F)
  genCode := functionCode E F
  genPrefix := []
  requests := bindFunctionRequests E F
  deps := []
  incl := F.incl
  includes := includesOf E depth (functionBinderSteps F)

/-- A `ClassBinder`: class.cpp:512-549, 1238-1418. -/
def classDecl (E : Env) (depth : Nat) (inSystem : Bool) (i : Nat) : Decl where
  ident := classQualifiedName E (E.cls i)
  ns := nsOf E (E.cls i).qname (E.cls i).name
  typeName := some (typeNameOfRecord E i)
  record := some (recOf E i)
  canBind := classBindable E i
  builtin := builtinDecl E (E.cls i).qname
  inSystem := inSystem
  skipAsked := answer (skipClass E i)
  bindAsked := answer (bindClass E i)
  genCode := (classOutput E i).code
  genPrefix := (classOutput E i).pre
  requests := (classOutput E i).requests
  deps := (classOutput E i).deps.map (recOf E)
  incl := (E.cls i).incl
  includes := includesOf E depth (classBinderSteps E i (classOutput E i).prefixIncludes)

/-- An `EnumBinder`: enum.cpp:147-183. -/
def enumDecl (E : Env) (depth : Nat) (inSystem : Bool) (i : Nat) : Decl where
  ident := (E.enumD i).qname
  ns := nsOf E (E.enumD i).qname (E.enumD i).name
  typeName := some (typeNameOfEnum E i)
  record := none
  canBind := enumBindable (E.enumD i) && !bannedDecl E (E.enumD i).qname
  builtin := builtinDecl E (E.enumD i).qname
  inSystem := inSystem
  skipAsked := answer (skipEnum E (E.enumD i))
  bindAsked := answer (bindEnumAsked E (E.enumD i))
  genCode := enumCode E (E.enumD i)
  genPrefix := []
  requests := []
  deps := []
  incl := (E.enumD i).incl
  includes := includesOf E depth (enumBinderSteps i)

/-- The object made for a declaration. -/
def TransUnit.decl (U : TransUnit) (v : Visit) : Decl :=
  match v with
  | .fn F => functionDecl U.E U.depth (U.inSystem v) F
  | .cls i => classDecl U.E U.depth (U.inSystem v) i
  | .enm i => enumDecl U.E U.depth (U.inSystem v) i

/-- Whether the visitor makes an object for the declaration and passes it to `Context::add`: lines 113-118, 128-135, 176-182. -/
def TransUnit.offered (U : TransUnit) : Visit → Bool
  | .fn F => !F.method.isSome && functionBindable U.E F
  | .cls i => !(U.E.cls i).isMember && classBindable U.E i
  | .enm i => !((U.E.enumD i).isInstanceMember || (U.E.enumD i).outer.isSome)

/-- The objects passed to `Context::add`, in order. -/
def TransUnit.offers (U : TransUnit) : List Decl := (U.visits.filter U.offered).map U.decl

/-- `add_relevant_includes` of the object, as steps. -/
def visitSteps (E : Env) : Visit → List Step
  | .fn F => functionBinderSteps F
  | .cls i => classBinderSteps E i (classOutput E i).prefixIncludes
  | .enm i => enumBinderSteps i

/-- The fuel for the collection of include lines suffices. By `C54_terminates` there is such a `depth` for every program. -/
def TransUnit.Deep (U : TransUnit) : Prop := ∀ v ∈ U.visits, (collectF U.E U.depth [] (visitSteps U.E v)).isSome = true

/-! ## Contradictory requests -/

/-- `is_skipping_requested` of the declaration. -/
def skipQuery (E : Env) : Visit → Except QueryError Bool
  | .fn F => skipFunction E F
  | .cls i => skipClass E i
  | .enm i => skipEnum E (E.enumD i)

/-- `is_binding_requested` of the declaration. -/
def bindQuery (E : Env) : Visit → Except QueryError Bool
  | .fn F => bindFunctionAsked E F
  | .cls i => bindClass E i
  | .enm i => bindEnumAsked E (E.enumD i)

/-- The query ends with an exception. -/
def throws : Except QueryError Bool → Bool
  | .ok _ => false
  | .error _ => true

/-- `request_bindings_and_skipping` throws for the declaration, context.cpp:252-258: the question for a binding request is not asked for a
declaration to skip, nor for one in a system header. -/
def TransUnit.conflict (U : TransUnit) (v : Visit) : Bool :=
  throws (skipQuery U.E v) || (!U.inSystem v && !answer (skipQuery U.E v) && throws (bindQuery U.E v))

/-- Some object of the list throws in the first loop of `Context::bind`; objects that `Context::add` has dropped (`seen` holds the
identifiers) are not asked, nor are objects that cannot be bound. -/
def TransUnit.conflictIn (U : TransUnit) (seen : List Str) : List Visit → Bool
  | [] => false
  | v :: vs =>
    if seen.contains (U.decl v).ident then U.conflictIn seen vs
    else ((U.decl v).canBind && U.conflict v) || U.conflictIn ((U.decl v).ident :: seen) vs

/-! ## A run -/

/-- How a run ends, and the files then: it returns, it calls `std::exit(1)` (context.cpp:304), or an exception ends it. -/
inductive Outcome where
  | done (fs : FS)
  | exit (fs : FS)
  | thrown (fs : FS)

/-- `root_module_full_file_name`, context.cpp:334-337. -/
def rootPath (o : Opts) : Str := o.pre ++ c!"/" ++ (o.root ++ c!".cpp")

/-- `update_source_file` for one file after the other (context.cpp:447); if one throws, the files written so far stay. Simplification: the
directories the failing call may have made before are left out. -/
def updateUntil (pre : Str) : FS → List (Str × Str) → FS ⊕ FS
  | fs, [] => .inr fs
  | fs, (name, code) :: rest => match updateSourceFile fs pre name code with
    | none => .inl fs
    | some fs => updateUntil pre fs rest

/-- Text written through a file handle opened before, from the beginning of the file; what the file holds behind that stays. -/
def FS.overwrite (fs : FS) (name text : Str) : FS :=
  { fs with files := fun x => if x = name then some (text ++ ((fs.files name).getD []).drop text.length) else fs.files x }

/-- `std::ofstream f(name); f << text;` without a check for failure, context.cpp:488-492. -/
def FS.tryWrite (fs : FS) (name text : Str) : FS := (writeFile fs name text).getD fs

/-- The end of `Context::generate`, context.cpp:472-493. -/
def finishRun (c : Config) (o : Opts) (bs : List SortItem) (files : List OutFile) (fs : FS) : FS :=
  let namespaces := allNestedNamespaces bs
  let fs := fs.overwrite (rootPath o) (rootFileText c o namespaces files)
  if o.single then fs
  else
    (fs.tryWrite (o.pre ++ c!"/" ++ o.root ++ c!".sources") (sourcesText o files)).tryWrite
      (o.pre ++ c!"/" ++ o.root ++ c!".modules") (modulesText namespaces)

/-- The files passed to `update_source_file`, context.cpp:446-447. -/
def sourceFiles (c : Config) (o : Opts) (files : List OutFile) : List (Str × Str) :=
  if o.single then [] else files.map fun f => (f.name, f.text c o)

/-- `Context::generate`, context.cpp:323-494, for the objects in `offers`; every loop makes at most `n` steps, `none` means that this was
not enough. The files are written after the loop that makes them; in the code each is written when it is ready. -/
def generateF (n : Nat) (c : Config) (o : Opts) (offers : List Decl) (fs : FS) : Option Outcome :=
  let r := register offers
  match Loop.run (bindStep r) n (bindStart r) with
  | none => none
  | some st =>
    match writeFile fs (rootPath o) [] with
    | none => some (.thrown fs)
    | some fs =>
      match Loop.run sortStep n (sortInput r st) with
      | none => none
      | some none => some (.exit fs)
      | some (some bs) =>
        match Loop.run (genStep c o bs) n GenState.init with
        | none => none
        | some files =>
          match updateUntil o.pre fs (sourceFiles c o files) with
          | .inl fs => some (.thrown fs)
          | .inr fs => some (.done (finishRun c o bs files fs))

/-- `HandleTranslationUnit`, lines 207-211, for the configuration that the constructor of `BinderVisitor` has made (lines 85-99). -/
def TransUnit.runF (U : TransUnit) (n : Nat) (o : Opts) (fs : FS) : Option Outcome :=
  if U.conflictIn [] (U.visits.filter U.offered) then some (.thrown fs) else generateF n U.E.cfg o U.offers fs

/-- The run ends in the given way. -/
def TransUnit.Ends (U : TransUnit) (o : Opts) (fs : FS) (out : Outcome) : Prop := ∃ n, U.runF n o fs = some out

/-- `ClangTool::run`, lines 235-245: one unit after the other, as long as none ends the program. -/
def runUnitsF (n : Nat) (o : Opts) : FS → List TransUnit → Option Outcome
  | fs, [] => some (.done fs)
  | fs, U :: Us => match U.runF n o fs with
    | some (.done fs) => runUnitsF n o fs Us
    | x => x

end Binder
