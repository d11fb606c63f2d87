import Verif.Spec.Function

/-!
# Specification: what a class binding has to look like

Only the AST types of `Verif.Model.Ast` are used, no function of the model.
-/

namespace Binder.Spec

open Cxx

/-! ## Inheritance -/

/-- Class `i` is class `j` or inherits from it, directly or not, through bases that satisfy `ok`. -/
inductive Inherits (E : Env) (ok : Base → Prop) : Nat → Nat → Prop where
  | refl {i} : Inherits E ok i i
  | step {i j k b} : b ∈ (E.cls i).bases → ok b → b.record = some j → Inherits E ok j k → Inherits E ok i k

/-- Every kind of base. -/
def anyBase : Base → Prop := fun _ => True

/-- Class `k` is a base of class `i`, directly or not. -/
def ProperBase (E : Env) (i k : Nat) : Prop := ∃ b ∈ (E.cls i).bases, ∃ j, b.record = some j ∧ Inherits E anyBase j k

/-- The class has a default constructor, and none that is private or deleted. -/
def DefaultUsable (C : Record) : Prop :=
  C.hasDefaultConstructor = true ∧
  ∀ t, Member.method t ∈ C.members → t.isCtor = true → t.isDefaultCtor = true → t.access ≠ .priv ∧ t.isDeleted = false

/-- A base that is public or protected. -/
def notPrivate : Base → Prop := fun b => b.access ≠ .priv

/-- Class `i` is class `j` or inherits from it, and all classes from `i` to `j` are abstract: the classes whose pure virtual functions
may still need an implementation in a class derived from `i`. -/
inductive AbstractPath (E : Env) : Nat → Nat → Prop where
  | refl {i} : (E.cls i).isAbstract = true → AbstractPath E i i
  | step {i j k b} : (E.cls i).isAbstract = true → b ∈ (E.cls i).bases → b.record = some j → AbstractPath E j k → AbstractPath E i k

/-- Class `i` is class `j` or inherits from it through bases that satisfy `ok`, and no class from `i` to `j`, except perhaps `j` itself,
satisfies `has`. -/
inductive FirstAlong (E : Env) (ok : Base → Prop) (has : Nat → Prop) : Nat → Nat → Prop where
  | here {i} : FirstAlong E ok has i i
  | down {i j k b} : ¬ has i → b ∈ (E.cls i).bases → ok b → b.record = some j → FirstAlong E ok has j k → FirstAlong E ok has i k

/-- Every class has at most one base. -/
def SingleInheritance (E : Env) : Prop := ∀ i, (E.cls i).bases.length ≤ 1

/-! ## Signatures -/

/-- Name, parameter list and constness of a member function, as written in a class: `f(int a0, const A & a1) const`. -/
def declarator (name : Str) (types : List Str) (isConst : Bool) : Str :=
  name ++ c!"(" ++ listText ((types.zipIdx).map fun p => p.1 ++ c!" " ++ ('a' :: Nat.toDigits 10 p.2)) ++ c!")" ++
  (if isConst then c!" const" else [])

/-- The type of a parameter as far as overriding and overloading are concerned: typedefs and a `const` at the top do not matter
(C++ standard, [dcl.fct]). -/
def paramType (p : Param) : Ty := p.ty.canon.unqual

/-- Two member functions that cannot both be declared in one class, and that override each other. -/
def SameSignature (f g : Func) : Prop := f.name = g.name ∧ f.params.map paramType = g.params.map paramType ∧ f.isConst = g.isConst

/-! ## Callback structures -/

/-- A member function of a callback structure, with the alias (name and type) declared before it if there is one. -/
structure OverrideDecl where
  alias : Option (Str × Str)
  ret : Str
  name : Str
  types : List Str
  isConst : Bool
  exception : Str
  body : Str

/-- C++ text of such a function: `\tR f(int a0) const noexcept override {body\t}`. -/
def OverrideDecl.text (d : OverrideDecl) : Str :=
  (match d.alias with | some a => c!"\tusing " ++ a.1 ++ c!" = " ++ a.2 ++ c!";\n" | none => []) ++
  c!"\t" ++ d.ret ++ c!" " ++ declarator d.name d.types d.isConst ++ c!" " ++ d.exception ++ c!"override {" ++ d.body ++ c!"\t}\n"

/-- C++ text of a callback structure. -/
def structText (name base ctor : Str) (ds : List OverrideDecl) : Str :=
  c!"struct " ++ name ++ c!" : public " ++ base ++ c!" {\n\tusing " ++ base ++ c!"::" ++ ctor ++ c!";\n\n" ++
  (ds.map OverrideDecl.text).flatten ++ c!"};\n\n"

/-- What an overriding function does first: it looks for a Python method `name` of the object, which is registered as a `cls`. If there is
one, it is called with the arguments, and its result is returned as a `ret`. -/
structure Dispatch where
  cls : Str
  name : Str
  args : List Str
  ret : Str

/-- C++ text of a dispatch. -/
def Dispatch.text (d : Dispatch) : Str :=
  "\npybind11::gil_scoped_acquire gil;\n".toList ++
  "pybind11::function overload = pybind11::get_overload(static_cast<const ".toList ++ d.cls ++ c!" *>(this), \"" ++ d.name ++ c!"\");\n" ++
  "if (overload) {\n\tauto o = overload.operator()<pybind11::return_value_policy::reference>(".toList ++ listText d.args ++ c!");\n" ++
  "\tif (pybind11::detail::cast_is_temporary_value_reference<".toList ++ d.ret ++ c!">::value) {\n" ++
  "\t\tstatic pybind11::detail::override_caster_t<".toList ++ d.ret ++ c!"> caster;\n" ++
  "\t\treturn pybind11::detail::cast_ref<".toList ++ d.ret ++ c!">(std::move(o), caster);\n\t}\n" ++
  "\treturn pybind11::detail::cast_safe<".toList ++ d.ret ++ c!">(std::move(o));\n}\n"

/-- The values of clang's `ExceptionSpecificationType` (LLVM 9 and later). -/
inductive Exceptions where
  | none | dynamicNone | dynamic | msAny | noThrow | basicNoexcept | dependentNoexcept | noexceptFalse | noexceptTrue | unevaluated
  | uninstantiated | unparsed
deriving DecidableEq

/-- Their numbers. -/
def Exceptions.code : Exceptions → Nat
  | none => 0 | dynamicNone => 1 | dynamic => 2 | msAny => 3 | noThrow => 4 | basicNoexcept => 5 | dependentNoexcept => 6
  | noexceptFalse => 7 | noexceptTrue => 8 | unevaluated => 9 | uninstantiated => 10 | unparsed => 11

/-- The specifications that promise that no exception leaves the function: `throw()`, `__declspec(nothrow)`, `noexcept`,
`noexcept(true)`. -/
def Exceptions.nonThrowing : Exceptions → Bool
  | dynamicNone | noThrow | basicNoexcept | noexceptTrue => true
  | _ => false

/-! ## Members -/

/-- `f` is declared as a public member function, constructor or destructor of `C`, or is a specialisation of a public member function
template. -/
def PublicMethod (C : Record) (f : Func) : Prop :=
  f.access = .pub ∧ (Member.method f ∈ C.members ∨ ∃ specs, Member.funcTemplate specs ∈ C.members ∧ f ∈ specs)

/-- `t` is made public in `C` by a `using` declaration. -/
def MadePublic (C : Record) (t : Target) : Prop := ∃ ts, Member.using .pub ts ∈ C.members ∧ t ∈ ts

/-- `f` is declared as a public field of `C`. -/
def PublicField (C : Record) (f : Field) : Prop := f.access = .pub ∧ Member.field f ∈ C.members

/-- `k` is a base of the class `i` whose members are bound as members of `i`: `i` and all classes between are specialisations of class
templates, and the inheritance is public and not virtual; classes that satisfy `skipped` and their bases are left out. -/
inductive TemplateBase (E : Env) (skipped : Nat → Prop) : Nat → Nat → Prop where
  | one {i j b} : (E.cls i).targs.isSome = true → b ∈ (E.cls i).bases → b.access = .pub → b.isVirtual = false → b.record = some j →
      ¬ skipped j → TemplateBase E skipped i j
  | more {i j k b} : (E.cls i).targs.isSome = true → b ∈ (E.cls i).bases → b.access = .pub → b.isVirtual = false → b.record = some j →
      ¬ skipped j → TemplateBase E skipped j k → TemplateBase E skipped i k

/-! ## Constructors -/

/-- `d` is the position of the first default argument, or the number of parameters if there is none. -/
def FirstDefault (params : List Param) (d : Nat) : Prop :=
  d ≤ params.length ∧ (∀ i, ∀ h : i < params.length, i < d → (params[i]).hasDefault = false) ∧
  (∀ h : d < params.length, (params[d]).hasDefault = true)

/-- A pybind11 constructor statement. -/
inductive Init where
  /-- `init<T0, T1>()`: calls the constructor with exactly these parameter types. -/
  | direct (types : List Str) (keywords : List Str)
  /-- One lambda for each class of which an object may be created: `[](T0 a0){ return new C(a0); }`. -/
  | viaLambda (params : List (Str × Str)) (args : List Str) (targets : List Str) (keywords : Option (List Str))

/-- The number of arguments a constructor statement takes. -/
def Init.arity : Init → Nat
  | .direct types _ => types.length
  | .viaLambda params _ _ _ => params.length

/-- The names under which the arguments can be passed. -/
def Init.keywords : Init → List Str
  | .direct _ ks => ks
  | .viaLambda _ _ _ ks => ks.getD []

/-- Keyword annotations. -/
def keywordText (ks : List Str) : Str := (ks.map fun k => c!", pybind11::arg(\"" ++ k ++ c!"\")").flatten

/-- A lambda that creates an object. -/
def newText (params : List (Str × Str)) (args : List Str) (target : Str) : Str :=
  c!"[](" ++ listText (params.map fun p => p.1 ++ p.2) ++ c!"){ return new " ++ target ++ c!"(" ++ listText args ++ c!"); }"

/-- C++ text of a constructor statement. -/
def Init.text : Init → Str
  | .direct types ks => c!"\tcl.def( pybind11::init<" ++ listText types ++ c!">()" ++ keywordText ks ++ c!" );\n"
  | .viaLambda params args targets ks =>
    c!"\tcl.def( pybind11::init( " ++ listText (targets.map (newText params args)) ++ c!" ), \"doc\"" ++
    (match ks with | some l => c!" " ++ keywordText l | none => []) ++ c!");"

/-! ## The class statement -/

/-- The parts of a `pybind11::class_` statement. -/
structure ClassDef where
  name : Str
  holder : Str
  callback : Option Str
  bases : List Str
  scope : Str
  pyName : Str
  doc : Str
  extra : List Str

/-- C++ text of a `class_` statement. -/
def ClassDef.text (c : ClassDef) : Str :=
  c!"\tpybind11::class_<" ++ List.intercalate c!", " ([c.name, c.holder] ++ c.callback.toList ++ c.bases) ++ c!"> cl(" ++ c.scope ++ c!", \"" ++
  c.pyName ++ c!"\", \"" ++ c.doc ++ c!"\"" ++ (c.extra.map fun x => c!", " ++ x).flatten ++ c!");\n"

/-- A class whose objects have a copy assignment that a user of the class cannot call: one is declared, and it is deleted or not public. -/
def AssignmentHidden (C : Record) : Prop :=
  ∃ f m, Member.method f ∈ C.members ∧ f.method = some m ∧ m.isCopyAssign = true ∧ (m.access ≠ .pub ∨ f.isDeleted = true)

/-- The class of a field, with qualifiers and typedefs removed. -/
def fieldClass (f : Field) : Option Nat := match f.ty.head with | .record j => some j | _ => none

/-- A field whose value cannot be replaced: it is `const`, or its class has no accessible copy assignment. -/
def ReadOnly (E : Env) (f : Field) : Prop := f.ty.isConst = true ∨ ∃ j, fieldClass f = some j ∧ AssignmentHidden (E.cls j)

/-- C++ text of a pybind11 field statement. -/
def fieldText (readonly : Bool) (name owner : Str) : Str :=
  (if readonly then c!".def_readonly" else c!".def_readwrite") ++ c!"(\"" ++ name ++ c!"\", &" ++ owner ++ c!"::" ++ name ++ c!")"

end Binder.Spec
