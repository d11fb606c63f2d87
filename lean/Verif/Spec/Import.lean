import Verif.Spec.Run
import Verif.Spec.Generate

/-!
# Specification: what Python does when the generated module is imported

The statements in the generated functions call pybind11, which makes Python objects and raises an exception if it cannot. Here are the
calls (`Op`), what they do (`Py.exec`), and which calls stand in the text of a binding (`Block`). C++ types are named by their C++ names.
Left out: the conversion of signatures to documentation, holder types (all classes have holders of the same kind), memory.
-/

namespace Binder.Spec

open Cxx

/-- Where a name is bound: in the Python module for a C++ namespace, or in a Python class. -/
inductive Scope where
  | module (ns : Str)
  | type (cpp : Str)
deriving DecidableEq, Repr

/-- One call of pybind11. -/
inductive Op where
  /-- `pybind11::class_<cpp, ..., bases> cl(scope, "name", ...)` -/
  | class_ (scope : Scope) (name cpp : Str) (bases : List Str)
  /-- `pybind11::enum_<cpp>(scope, "name", ...)` with `.value(...)` for each enumerator, and `.export_values()` if `exports` -/
  | enum_ (scope : Scope) (name cpp : Str) (values : List Str) (exports : Bool)
  /-- `cl.def_readwrite("name", ...)`, `cl.def_readonly("name", ...)` -/
  | property (scope : Scope) (name : Str)
  /-- `cl.def("name", ...)` for methods, `cl.def_static("name", ...)` and `M("...").def("name", ...)` otherwise -/
  | function (scope : Scope) (name : Str) (isMethod : Bool)
  /-- A function of the user gets a module or a class: `f(M("..."))`, `f(cl)` -/
  | calls (scope : Scope)
  /-- A binder of the user for the class `cpp`: `f<...>(M("..."), ...)` -/
  | binder (ns cpp : Str)
deriving DecidableEq, Repr

/-- What a name stands for: a function made by pybind11, or something else (a class, a property, a value, a module). -/
inductive Kind where
  | func (isMethod : Bool)
  | object
deriving DecidableEq, Repr

/-- The state of the interpreter: the modules made, the C++ types that pybind11 knows with the order in which Python searches them and
their bases for a name, and the names bound (the newest first). -/
structure Py where
  modules : List Str
  types : List (Str × List Str)
  attrs : List ((Scope × Str) × Kind)

namespace Py

/-- What a name in a scope itself stands for. -/
def own (p : Py) (s : Scope) (n : Str) : Option Kind := p.attrs.lookup (s, n)

/-- What `getattr` finds: for a class, the first of it and its bases that has the name. -/
def find (p : Py) (s : Scope) (n : Str) : Option Kind :=
  match s with
  | .module _ => p.own s n
  | .type q => ((p.types.lookup q).getD [q]).findSome? fun t => p.own (.type t) n

/-- The scope exists; `M` throws "Attempt to access pybind11::module ... before it was created". -/
def has (p : Py) : Scope → Bool
  | .module ns => p.modules.contains ns
  | .type q => (p.types.lookup q).isSome

end Py

/-- The first head of the lists that is in the tail of none. -/
def c3Head (ls : List (List Str)) : Option Str :=
  ls.findSome? fun l => match l with
    | [] => none
    | h :: _ => if ls.all (fun l' => !l'.tail.contains h) then some h else none

/-- Python's method resolution order ("C3"): the lists are merged; `none` is the error "Cannot create a consistent method resolution
order". `n` bounds the steps. -/
def c3 : Nat → List (List Str) → Option (List Str)
  | 0, _ => none
  | n + 1, ls =>
    if ls.all (·.isEmpty) then some []
    else match c3Head ls with
      | none => none
      | some h => (c3 n (ls.map fun l => if l.head? = some h then l.tail else l)).map (h :: ·)

/-- The search order of a class with the given bases, whose orders are `lin`. -/
def linearize (lin : Str → List Str) (cpp : Str) (bases : List Str) : Option (List Str) :=
  let ls := bases.map lin ++ [bases]
  (c3 (ls.flatten.length + 1) ls).map (cpp :: ·)

namespace Py

/-- The search order of a known type. -/
def order (p : Py) (t : Str) : List Str := (p.types.lookup t).getD [t]

/-- A new type: pybind11 raises an exception if the scope has a thing of that name, if the C++ type is already known, or if a base is not
known; Python raises one if there is no search order. -/
def register (p : Py) (s : Scope) (name cpp : Str) (bases : List Str) : Option Py :=
  if p.has s && (p.own s name).isNone && (p.types.lookup cpp).isNone && bases.all (fun b => (p.types.lookup b).isSome) then
    (linearize p.order cpp bases).map fun l =>
      { p with types := (cpp, l) :: p.types, attrs := ((s, name), .object) :: p.attrs }
  else none

/-- One call; `none` is an exception, which ends the import.

A function cannot be added under a name that stands for something else ("Cannot overload existing non-function object"; names that begin
with `_` are exempt), nor as a method under the name of a static function of the same class or the other way round ("overloading a method
with both static and instance methods is not supported"). Functions of the user are trusted: they succeed and bind no names; a binder
registers its class. -/
def exec (p : Py) : Op → Option Py
  | .class_ s name cpp bases => p.register s name cpp bases
  | .enum_ s name cpp values exports =>
    if decide values.Nodup then
      (p.register s name cpp []).map fun p =>
        if exports then { p with attrs := values.map (fun v => ((s, v), Kind.object)) ++ p.attrs } else p
    else none
  | .property s name => if p.has s then some { p with attrs := ((s, name), .object) :: p.attrs } else none
  | .function s name m =>
    if p.has s && (p.find s name != some .object || name.head? == some '_') && (p.own s name != some (.func (!m))) then
      some { p with attrs := ((s, name), .func m) :: p.attrs }
    else none
  | .calls s => if p.has s then some p else none
  | .binder ns cpp => if p.modules.contains ns && (p.types.lookup cpp).isNone then some { p with types := (cpp, [cpp]) :: p.types } else none

/-- All calls, in order. -/
def execAll : Py → List Op → Option Py
  | p, [] => some p
  | p, op :: ops => match p.exec op with
    | none => none
    | some p => execAll p ops

end Py

/-- The Python name of a namespace, `mangle_namespace_name` in the root module. -/
def moduleName (n : Str) : Str := if n = c!"nonlocal" ∨ n = c!"global" then n ++ c!"_" else n

/-- The interpreter after the root module has made the modules for the namespaces: `pairs` are the entries of the table `sub_modules`.
`none`: the parent does not exist. -/
def makeModules : Py → List (Str × Str) → Option Py
  | p, [] => some p
  | p, (parent, n) :: rest =>
    if p.modules.contains parent then
      makeModules { p with modules := (if parent = [] then n else parent ++ c!"::" ++ n) :: p.modules,
                           attrs := ((.module parent, moduleName n), .object) :: p.attrs } rest
    else none

/-- Importing a module: the table of the root module, then the calls of the generated functions. -/
def importModule (pairs : List (Str × Str)) (ops : List Op) : Option Py :=
  match makeModules ⟨[[]], [], []⟩ pairs with
  | none => none
  | some p => p.execAll ops

/-! ## The calls in the binding of a declaration -/

/-- One call for every number of arguments that can be given. -/
def overloads (F : Func) (first : Nat) (op : Op) : List Op := (arities first F.params.length).map fun _ => op

/-- An enumeration. -/
def enumOp (s : Scope) (e : EnumD) : Op := .enum_ s e.name e.qname (e.enumerators.map (·.1)) (!e.isScopedUsingClassTag)

/-- The calls for a thing inside of a class. -/
def itemOps (E : Env) (i : Nat) (s : Scope) : Item → List Op
  | .implicitDefault => [.function s c!"__init__" true]
  | .defaultCtor _ => [.function s c!"__init__" true]
  | .copyCtor t => .function s c!"__init__" true ::
      (if trampoline E i && !(E.cls i).isAbstract && t.access == .pub then [.function s c!"__init__" true] else [])
  | .ctor t => overloads t (firstDefault t.params) (.function s c!"__init__" true)
  | .enum e => [enumOp s (E.enumD e)]
  | .field _ f => [.property s f.name]
  | .method f _ _ => overloads f (firstArity f) (.function s (boundName E f) (!f.isStatic))
  | .repr _ => [.function s c!"__str__" true]
  | .addOn _ => [.calls s]

/-- The calls for a class: itself, its members, its nested classes. `outer` is what the variable `cl` is outside of the block. -/
def classOpsF (E : Env) : Nat → Scope → Nat → List Op
  | 0, _, _ => []
  | n + 1, outer, i =>
    let C := E.cls i
    let q := classQualifiedName E C
    let s := if C.isAnonymous then outer else .type q
    if builtinDecl E C.qname then []
    else if (E.cfg.binders (stdName E C.qname)).isSome then [.binder (nsOf E C.qname C.name) q]
    else (if C.isAnonymous then [] else
        [.class_ (if C.outer.isSome then outer else .module (nsOf E C.qname C.name)) (pythonClassName E C) q
          ((boundBases E C).map fun j => classQualifiedName E (E.cls j))]) ++
      (classItems E i).flatMap (itemOps E i s) ++ (nestedBound E C).flatMap (classOpsF E n s)

/-- The calls for a declaration. -/
def opsOf (E : Env) : Visit → List Op
  | .fn F => overloads F (firstArity F) (.function (.module (nsOf E F.qname F.name)) (pythonFunctionName F) false)
  | .cls i => classOpsF E (E.nestRank i + 1) (.type []) i
  | .enm i => [enumOp (.module (nsOf E (E.enumD i).qname (E.enumD i).name)) (E.enumD i)]

/-- The calls of an entry of a generated function. -/
def Stmt.ops (E : Env) : Stmt → List Op
  | .binds v => opsOf E v
  | .calls _ ns => [.calls (.module ns)]
  | .traces _ _ => []

/-- All calls, in the order of the import. -/
def importOps (E : Env) (srcs : List Source) : List Op := srcs.flatMap fun s => s.stmts.flatMap (Stmt.ops E)

/-! ## The calls in the text -/

/-- The variable for a scope. -/
def Scope.text : Scope → Str
  | .module ns => c!"M(\"" ++ ns ++ c!"\")"
  | .type _ => c!"cl"

/-- The C++ text of a call. -/
def Op.Is : Op → Str → Prop
  | .class_ s name cpp bases, t => ∃ opts rest, t = c!"\tpybind11::class_<" ++ cpp ++ opts ++ bases.flatMap (c!", " ++ ·) ++ c!"> cl(" ++
      (match s with | .module ns => c!"M(\"" ++ ns ++ c!"\")" | .type _ => c!"enclosing_class") ++ c!", \"" ++ name ++ c!"\", " ++ rest ++ c!");\n"
  | .enum_ s name cpp values exports, t => ∃ opts vals end_, t = c!"\tpybind11::enum_<" ++ cpp ++ c!">(" ++ s.text ++ c!", \"" ++ name ++ c!"\", " ++
      opts ++ c!")" ++ (values.zip vals).flatMap (fun v => c!"\n\t\t.value(\"" ++ v.1 ++ c!"\", " ++ v.2 ++ c!")") ++
      (if exports then c!"\n\t\t.export_values();" else c!";") ++ end_ ∧ vals.length = values.length ∧ ∀ c ∈ end_, c = '\n' ∨ c = ';'
  | .property s name, t => ∃ how rest, (how = c!"readonly" ∨ how = c!"readwrite") ∧
      t = c!"\t" ++ s.text ++ c!".def_" ++ how ++ c!"(\"" ++ name ++ c!"\", " ++ rest ++ c!");\n"
  | .function s name m, t => ∃ rest end_, (∀ c ∈ end_, c = '\n') ∧
      ((∃ sp, (∀ c ∈ sp, c = ' ') ∧ name = c!"__init__" ∧ m = true ∧ t = c!"\t" ++ s.text ++ c!".def(" ++ sp ++ c!"pybind11::init" ++ rest ++ c!");" ++ end_) ∨
       (∃ nl, (∀ c ∈ nl, c = '\n') ∧ t = nl ++ c!"\t" ++ s.text ++ (match s, m with | .type _, false => c!".def_static" | _, _ => c!".def") ++ c!"(\"" ++
          name ++ c!"\", " ++ rest ++ c!");" ++ end_))
  | .calls s, t => ∃ f, t = c!"\n\t" ++ f ++ c!"(" ++ s.text ++ c!");\n"
  | .binder ns _, t => ∃ f args, t = c!"\t" ++ f ++ c!"(M(\"" ++ ns ++ c!"\")" ++ args ++ c!");\n\n"

/-- Text without calls: empty lines, comments, the beginning and the end of a block, traces. -/
def Gap (t : Str) : Prop :=
  t = c!"\n" ∨ t = c!"}\n" ∨ t = c!";\n\n" ∨ t = c!"\tauto & enclosing_class = cl;\n" ∨
  (∃ r, t = c!"\t// " ++ r ++ c!"\n") ∨ (∃ r, t = c!"{ // " ++ r ++ c!"\n") ∨ (∃ r, t = c!"\tPYBIND11_TYPE_CASTER_BASE_HOLDER(" ++ r ++ c!")\n") ∨
  (∃ r, t = c!"\tstd::cout << " ++ r ++ c!";\n")

/-- The text is that of the calls, in order; blocks may be indented. -/
inductive Block : List Op → Str → Prop where
  | nil : Block [] []
  | gap {g} : Gap g → Block [] g
  | call {op t} : op.Is t → Block [op] t
  | append {a s b t} : Block a s → Block b t → Block (a ++ b) (s ++ t)
  | indented {a s tab} : Block a s → Block a (indent s tab)

/-! ## Programs whose bindings get along with each other -/

/-- The names a call binds, and what they stand for. -/
def Op.binds : Op → List ((Scope × Str) × Kind)
  | .class_ s n _ _ => [((s, n), .object)]
  | .enum_ s n _ vs ex => ((s, n), .object) :: (if ex then vs.map fun v => ((s, v), .object) else [])
  | .property s n => [((s, n), .object)]
  | .function s n m => [((s, n), .func m)]
  | _ => []

/-- The C++ type a call makes known. -/
def Op.type? : Op → Option Str
  | .class_ _ _ q _ => some q
  | .enum_ _ _ q _ _ => some q
  | .binder _ q => some q
  | _ => none

/-- The Python name a call gives to a C++ type. -/
def Op.typeName? : Op → Option (Scope × Str)
  | .class_ s n _ _ => some (s, n)
  | .enum_ s n _ _ _ => some (s, n)
  | _ => none

/-- The bases a call names. -/
def Op.bases : Op → List Str
  | .class_ _ _ _ bs => bs
  | _ => []

/-- The calls in `P`, in whatever order they are made, do not use the same name for different things. `lin` is the search order of the
classes, `pairs` are the modules for namespaces, with their parents. -/
structure Compatible (P : Op → Prop) (pairs : Str × Str → Prop) (lin : Str → List Str) : Prop where
  /-- The name of a class or an enumeration is the name of nothing else in its scope. -/
  types : ∀ a b, P a → P b → ∀ k, a.typeName? = some k → ∀ kind, (k, kind) ∈ b.binds → b = a
  /-- Overloaded functions are all static or all not static. -/
  overloaded : ∀ a b, P a → P b → ∀ k m m', (k, .func m) ∈ a.binds → (k, .func m') ∈ b.binds → m = m'
  /-- The name of a function is the name of nothing else in its module. -/
  functions : ∀ a b, P a → P b → ∀ ns n m, ((.module ns, n), .func m) ∈ a.binds → n.head? ≠ some '_' → ((.module ns, n), .object) ∉ b.binds
  /-- The name of a member function is the name of nothing else in its class and the base classes. -/
  methods : ∀ a b, P a → P b → ∀ q n m, ((.type q, n), .func m) ∈ a.binds → n.head? ≠ some '_' → ∀ t ∈ q :: lin q, ((.type t, n), .object) ∉ b.binds
  /-- The name of a class, an enumeration or a function is not that of a namespace. -/
  namespaces : ∀ a, P a → ∀ p, pairs p → a.typeName? ≠ some (.module p.1, moduleName p.2) ∧
    ((moduleName p.2).head? ≠ some '_' → ∀ m, ((.module p.1, moduleName p.2), .func m) ∉ a.binds)
  /-- Python finds a search order for each class. -/
  linear : ∀ a, P a → ∀ q, a.type? = some q → linearize lin q a.bases = some (lin q)
  /-- Enumerators have different names. -/
  values : ∀ s n q vs ex, P (.enum_ s n q vs ex) → vs.Nodup

/-! ## The modules of a run -/

/-- The line of the root module's table `sub_modules` for a module and its parent. -/
def tableLine (x : Str × Str) : Str := c!"\t\t{\"" ++ x.1 ++ c!"\", \"" ++ x.2 ++ c!"\"},\n"

/-- The text has the table of modules, and makes the modules in the order of the table. -/
def MakesModules (text : Str) (pairs : List (Str × Str)) : Prop :=
  ∃ before after, text = before ++ "\tstd::vector< std::pair<std::string, std::string> > sub_modules {\n".toList ++ pairs.flatMap tableLine ++
    ("\t};\n\tfor(auto &p : sub_modules ) modules[ p.first.empty() ? p.second :  p.first+\"::\"+p.second ] = ".toList ++
     "modules[p.first].def_submodule( mangle_namespace_name(p.second).c_str(), ".toList) ++ after

/-- Namespaces of bound declarations and those around them; the first component is the namespace around, the second the name in it. -/
def HasModule (U : TransUnit) (x : Str × Str) : Prop :=
  ∃ v, Reached U v ∧ ((if x.1 = [] then x.2 else x.1 ++ c!"::" ++ x.2) = namespaceOf U.E v ∨
    (if x.1 = [] then x.2 else x.1 ++ c!"::" ++ x.2) ++ c!"::" <+: namespaceOf U.E v)

/-- The components of a namespace. -/
def Components (ns : Str) (cs : List Str) : Prop := ns = joinNs cs ∧ ∀ c ∈ cs, IsComponent c

/-- The table of modules is that of the bound declarations: all entries are for their namespaces and those around them, and each of these has
an entry. -/
structure ModuleTable (U : TransUnit) (pairs : List (Str × Str)) : Prop where
  only : ∀ x ∈ pairs, HasModule U x
  all : ∀ v cs, Reached U v → Components (namespaceOf U.E v) cs → ∀ a c b, cs = a ++ c :: b → (joinNs a, c) ∈ pairs

/-- Every C++ type is bound by one declaration. -/
structure OneDefinition (U : TransUnit) : Prop where
  inside : ∀ v, Reached U v → ((opsOf U.E v).filterMap Op.type?).Nodup
  across : ∀ v w q, Reached U v → Reached U w → q ∈ (opsOf U.E v).filterMap Op.type? → q ∈ (opsOf U.E w).filterMap Op.type? → v = w

/-- Member classes: they know that they are members, and no binder of the user is configured for them. -/
structure MembersPlain (U : TransUnit) : Prop where
  outer : ∀ i, ∀ j ∈ nestedBound U.E (U.E.cls i), (U.E.cls j).outer.isSome = true
  binder : ∀ i, ∀ j ∈ nestedBound U.E (U.E.cls i), U.E.cfg.binders (stdName U.E (U.E.cls j).qname) = none

end Binder.Spec
