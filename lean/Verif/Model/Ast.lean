import Verif.Basic.Str
import Verif.Model.Config

/-!
# The part of clang's AST that binder inspects

binder reads the AST through clang's API. The structures below hold the answers of exactly those API calls that
`source/type.cpp`, `source/function.cpp`, `source/class.cpp` and `source/enum.cpp` make; all theorems quantify over all such
answers. Declarations are referred to by number (the pointer in the C++ code), because the graph of types and classes is cyclic.
-/

namespace Binder.Cxx

open Binder (Str)

/-- `clang::AccessSpecifier`; `none` is `AS_none` (declarations that are not class members). -/
inductive Access where
  | pub | prot | priv | none
deriving DecidableEq, Repr

/-- `clang::QualType`. `basic` stands for every type the program treats as a leaf (arithmetic types, `void`, pointers to members, ...),
`dep` for instantiation-dependent types, `sugar` for a type with the same canonical type as its argument (typedef, `auto`, elaborated
or template specialisation syntax), `const` for a local qualifier. Simplification: other qualifiers are part of `basic`/`sugar`;
`const` arrays keep the qualifier outside. -/
inductive Ty where
  | basic (key : Nat)
  | dep (key : Nat)
  | ptr (t : Ty)
  | lref (t : Ty)
  | rref (t : Ty)
  | arr (t : Ty)
  | fn (ret : Ty) (params : List Ty)
  | record (id : Nat)
  | enum (id : Nat)
  | const (t : Ty)
  | sugar (key : Nat) (t : Ty)
deriving Repr

namespace Ty

/-- `QualType::getTypePtr()`: the type without its local qualifiers. -/
def unqual : Ty → Ty
  | const t => unqual t
  | t => t

/-- The type without qualifiers and sugar at its head; the `is...Type()` predicates of clang inspect this. -/
def head : Ty → Ty
  | const t => head t
  | sugar _ t => head t
  | t => t

/-- `QualType::isConstQualified()`: a `const` at the head, possibly under sugar. -/
def isConst : Ty → Bool
  | const _ => true
  | sugar _ t => isConst t
  | _ => false

/-- A canonical type with `const` added, which is idempotent and does nothing to a reference ([dcl.ref]/1). -/
def mkConst : Ty → Ty
  | const t => const t
  | lref t => lref t
  | rref t => rref t
  | t => const t

/-- The canonical `t &`: a reference to a reference collapses ([dcl.ref]/6). -/
def mkLRef : Ty → Ty
  | lref t => lref t
  | rref t => lref t
  | t => lref t

/-- The canonical `t &&`: a reference to a reference collapses ([dcl.ref]/6). -/
def mkRRef : Ty → Ty
  | lref t => lref t
  | rref t => rref t
  | t => rref t

mutual
/-- `QualType::getCanonicalType()`: all sugar removed. -/
def canon : Ty → Ty
  | basic k => basic k
  | dep k => dep k
  | ptr t => ptr (canon t)
  | lref t => mkLRef (canon t)
  | rref t => mkRRef (canon t)
  | arr t => arr (canon t)
  | fn r ps => fn (canon r) (canonList ps)
  | record i => record i
  | enum i => enum i
  | const t => mkConst (canon t)
  | sugar _ t => canon t
/-- `canon` on a list of parameter types. -/
def canonList : List Ty → List Ty
  | [] => []
  | t :: ts => canon t :: canonList ts
end

mutual
/-- `Type::isInstantiationDependentType()`. -/
def dependent : Ty → Bool
  | basic _ => false
  | dep _ => true
  | ptr t => dependent t
  | lref t => dependent t
  | rref t => dependent t
  | arr t => dependent t
  | fn r ps => dependent r || dependentList ps
  | record _ => false
  | enum _ => false
  | const t => dependent t
  | sugar _ t => dependent t
/-- `dependent` on a list of parameter types. -/
def dependentList : List Ty → Bool
  | [] => false
  | t :: ts => dependent t || dependentList ts
end

/-- `dyn_cast<PointerType>(qt.getTypePtr())`: does not look through sugar. -/
def asPtr (t : Ty) : Option Ty := match t.unqual with | ptr p => some p | _ => none
/-- `dyn_cast<ReferenceType>(qt.getTypePtr())`: does not look through sugar. -/
def asRef (t : Ty) : Option Ty := match t.unqual with | lref p => some p | rref p => some p | _ => none
/-- `isPointerType()` (also `isAnyPointerType()`, which adds only Objective-C pointers). -/
def isPointer (t : Ty) : Bool := match t.head with | ptr _ => true | _ => false
/-- `isLValueReferenceType()`. -/
def isLRef (t : Ty) : Bool := match t.head with | lref _ => true | _ => false
/-- `isRValueReferenceType()`. -/
def isRRef (t : Ty) : Bool := match t.head with | rref _ => true | _ => false
/-- `isReferenceType()`. -/
def isRef (t : Ty) : Bool := t.isLRef || t.isRRef
/-- `isArrayType()` (`isConstantArrayType()` implies it). -/
def isArray (t : Ty) : Bool := match t.head with | arr _ => true | _ => false
/-- `isFunctionType()`. -/
def isFn (t : Ty) : Bool := match t.head with | fn _ _ => true | _ => false
/-- `isFunctionPointerType()`. -/
def isFnPointer (t : Ty) : Bool := match t.head with | ptr p => p.isFn | _ => false
/-- `getAsCXXRecordDecl()`. -/
def asRecord (t : Ty) : Option Nat := match t.head with | record i => some i | _ => none
/-- `dyn_cast_or_null<EnumDecl>(getAsTagDecl())`. -/
def asEnum (t : Ty) : Option Nat := match t.head with | enum i => some i | _ => none

end Ty

/-- `clang::TemplateArgument::ArgKind` with the parts the program reads: the type of a `Type` argument, the templated declaration of a
`Template` argument, `getParamTypeForDecl()` and the declaration of a `Declaration` argument, `getIntegralType()`, `pack_size()`.
`key` is the name under which `add_relevant_include_for_decl` looks up the referenced declaration (type.cpp:313-337: the qualified name, for
a class member the name of a class around it or nothing), `incl` its `relevant_include`. -/
inductive ArgKind where
  | type (t : Ty)
  | template (key incl : Str)
  | declaration (paramType : Ty) (key incl : Str)
  | integral (t : Ty)
  | pack (size : Nat)
  | other
deriving Repr

/-- A template argument; `text` is `template_argument_to_string` of it (util.cpp:229-253). -/
structure TArg where
  text : Str
  kind : ArgKind
deriving Repr

/-- `ta.getAsType()` if `ta.getKind() == TemplateArgument::Type`. -/
def TArg.type? (a : TArg) : Option Ty := match a.kind with | .type t => some t | _ => none

/-- A `ParmVarDecl`: `getName()`, `getOriginalType()`, `hasDefaultArg()`. -/
structure Param where
  name : Str
  ty : Ty
  hasDefault : Bool
deriving Repr

/-- `FunctionDecl::TemplatedKind`. -/
inductive TemplatedKind where
  | nonTemplate | functionTemplate | memberSpecialization | functionTemplateSpecialization | dependentSpecialization
deriving DecidableEq, Repr

/-- Which subclass of `CXXMethodDecl` a method is. For constructors: `isDefaultConstructor()`, `isMoveConstructor()` and, if
`isCopyConstructor(typequals)`, whether the qualifiers are exactly `const`. -/
inductive MethodKind where
  | ordinary
  | ctor (isDefault isMove : Bool) (copy : Option Bool)
  | dtor
deriving DecidableEq, Repr

/-- What a `CXXMethodDecl` adds to a `FunctionDecl`. `exceptionSpec` is the numerical value of
`FunctionProtoType::getExceptionSpecType()`. -/
structure Method where
  parent : Nat
  access : Access
  kind : MethodKind
  isStatic : Bool
  isConst : Bool
  isVirtual : Bool
  isPure : Bool
  isFinal : Bool
  isCopyAssign : Bool
  exceptionSpec : Nat
deriving Repr

/-- A `FunctionDecl`. `qname` is `getQualifiedNameAsString()`, `incl` is `relevant_include(F)` (type.cpp:81-107), `line` the number
`line_number` prints, `comment` the text `get_text` extracts from the attached comment, `targs` is `getTemplateSpecializationArgs()`. -/
structure Func where
  ptr : Nat
  name : Str
  qname : Str
  incl : Str
  line : Str
  comment : Str
  ret : Ty
  params : List Param
  isOperator : Bool
  isDeleted : Bool
  isVariadic : Bool
  isConversion : Bool
  templated : TemplatedKind
  targs : Option (List TArg)
  method : Option Method
deriving Repr

/-- A `FieldDecl`. -/
structure Field where
  name : Str
  qname : Str
  ty : Ty
  access : Access
  isAnonymous : Bool
deriving Repr

/-- Target of a `UsingShadowDecl`. -/
inductive Target where
  | field (f : Field)
  | method (f : Func)
  | other
deriving Repr

/-- A member of `decls()` of a class. `using`: a `UsingDecl` with its access and the targets of its shadow declarations;
`funcTemplate`: the specialisations of a member function template; `classTemplate`: access and specialisations of a member class template. -/
inductive Member where
  | field (f : Field)
  | using (access : Access) (targets : List Target)
  | funcTemplate (specs : List Func)
  | method (f : Func)
  | nested (id : Nat)
  | classTemplate (access : Access) (specs : List Nat)
  | enum (id : Nat)
  | other
deriving Repr

/-- A `CXXBaseSpecifier`; `record` is the `RecordType` of its canonical type, if it is one. -/
structure Base where
  access : Access
  isVirtual : Bool
  record : Option Nat
deriving Repr

/-- A `CXXRecordDecl`. `targs` is `some` exactly for a `ClassTemplateSpecializationDecl`; `outer` is the enclosing class, so
`isCXXClassMember()` is `outer.isSome`; `hasInstantiationPoint` is `getPointOfInstantiation().isValid()`; `dtorAccess` the access of
`getDestructor()`; `isStruct` is `isStruct()`. -/
structure Record where
  name : Str
  qname : Str
  incl : Str
  line : Str
  comment : Str
  targs : Option (List TArg)
  access : Access
  outer : Option Nat
  isComplete : Bool
  isDependent : Bool
  inAnonymousNamespace : Bool
  hasNameForLinkage : Bool
  isAnonymous : Bool
  hasInstantiationPoint : Bool
  isAbstract : Bool
  isFinal : Bool
  hasDefaultConstructor : Bool
  needsImplicitDefaultConstructor : Bool
  isFirstDecl : Bool
  isThisDefinition : Bool
  definition : Option Nat
  dtorAccess : Option Access
  bases : List Base
  members : List Member
  isStruct : Bool := false
deriving Repr

/-- An `EnumDecl`. `enumerators` are name and qualified name; `outer` as in `Record`; `isInstanceMember` is `isCXXInstanceMember()`;
`definitionIncl` is `relevant_include` of `getDefinition()`. -/
structure EnumD where
  ptr : Nat
  name : Str
  qname : Str
  incl : Str
  line : Str
  comment : Str
  access : Access
  outer : Option Nat
  isInstanceMember : Bool
  isComplete : Bool
  isScoped : Bool
  isScopedUsingClassTag : Bool
  enumerators : List (Str × Str)
  definitionIncl : Option Str
deriving Repr

namespace Record

/-- `method_begin() .. method_end()`: the members that are `CXXMethodDecl`s (constructors and destructors included). -/
def methods (C : Record) : List Func := C.members.filterMap fun | .method f => some f | _ => none

/-- `dyn_cast<ClassTemplateSpecializationDecl>(C) != nullptr`. -/
def isSpecialization (C : Record) : Bool := C.targs.isSome

/-- `isCXXClassMember()`. -/
def isMember (C : Record) : Bool := C.outer.isSome

end Record

namespace Func

/-- `isa<CXXConstructorDecl>(m)`. -/
def isCtor (f : Func) : Bool := match f.method with | some ⟨_, _, .ctor _ _ _, _, _, _, _, _, _, _⟩ => true | _ => false
/-- `isa<CXXDestructorDecl>(m)`. -/
def isDtor (f : Func) : Bool := match f.method with | some ⟨_, _, .dtor, _, _, _, _, _, _, _⟩ => true | _ => false
/-- `m->getAccess()` for a method, `AS_none` otherwise. -/
def access (f : Func) : Access := match f.method with | some m => m.access | none => .none
/-- `m and m->isStatic()`. -/
def isStatic (f : Func) : Bool := match f.method with | some m => m.isStatic | none => false
/-- `m and m->isConst()`. -/
def isConst (f : Func) : Bool := match f.method with | some m => m.isConst | none => false
/-- `m->isVirtual()`. -/
def isVirtual (f : Func) : Bool := match f.method with | some m => m.isVirtual | none => false
/-- `m->isPure()`. -/
def isPure (f : Func) : Bool := match f.method with | some m => m.isPure | none => false
/-- `m and !m->isStatic()`. -/
def isInstance (f : Func) : Bool := match f.method with | some m => !m.isStatic | none => false
/-- `t->isDefaultConstructor()`. -/
def isDefaultCtor (f : Func) : Bool := match f.method with | some ⟨_, _, .ctor d _ _, _, _, _, _, _, _, _⟩ => d | _ => false
/-- `t->isMoveConstructor()`. -/
def isMoveCtor (f : Func) : Bool := match f.method with | some ⟨_, _, .ctor _ m _, _, _, _, _, _, _, _⟩ => m | _ => false
/-- `t->isCopyConstructor()`. -/
def isCopyCtor (f : Func) : Bool := match f.method with | some ⟨_, _, .ctor _ _ (some _), _, _, _, _, _, _, _⟩ => true | _ => false

end Func

/-- The command line options that the code generator reads (options.cpp); `skipLineNumber` is `Config::skip_line_number`. -/
structure Options where
  stl : Bool
  annotateIncludes : Bool
  annotateFunctions : Bool
  bindClassTemplateSpecialization : Bool
  skipLineNumber : Bool
deriving Repr

/-- Everything the generator can see: the declarations, how clang prints a type (`QualType::getAsString()`), the configuration and the
options. `cls i` and `enumD i` are the declarations behind the numbers. `simplify` is `simplify_std_class_name` (type.cpp:572-679): every theorem holds for every function in
its place; `Model/Simplify.lean` models the function of the program. `holder` is the holder type captured by the static set of type.cpp:689. `baseRank`, `argRank` and `nestRank`
bound the depth of the inheritance graph, of the nesting of template arguments and of the nesting of classes (see `Wellfounded`); they
are only used as recursion fuel. `insertions` are the functions the visitor passed to `Context::add_insertion_operator`, in order
(main.cpp:119-122). -/
structure Env where
  cls : Nat → Record
  enumD : Nat → EnumD
  tyName : Ty → Str
  simplify : Str → Str
  cfg : Config
  opts : Options
  holder : Str
  baseRank : Nat → Nat
  argRank : Nat → Nat
  nestRank : Nat → Nat
  insertions : List Func := []

/-- The types that are template arguments of a class. -/
def Record.typeArgs (C : Record) : List Ty :=
  match C.targs with
  | some as => as.filterMap TArg.type?
  | none => []

/-- The records that a walk through pointers and references of `t` ends at. -/
def Ty.target : Ty → Option Nat
  | .ptr t => t.target
  | .lref t => t.target
  | .rref t => t.target
  | .const t => t.target
  | .sugar _ t => t.target
  | .record i => some i
  | _ => none

/-- `ClassBinder::for_public_nested_classes`, class.cpp:1197-1211: the nested classes it visits, in order. -/
def Env.nestedClasses (E : Env) (C : Record) : List Nat :=
  C.members.flatMap fun
    | .nested i => if (E.cls i).access = .pub then [i] else []
    | .classTemplate a specs => if a = .pub then specs else []
    | _ => []

/-- The declaration of a nested class that is bound for declaration `i`, class.cpp:1218-1222. -/
def Env.nestedDefinition (E : Env) (i : Nat) : Nat :=
  if !(E.cls i).isThisDefinition then (E.cls i).definition.getD i else i

/-- The types of a `std::function` specialisation that `is_std_function_bindable` checks, class.cpp:195-218. -/
def Record.functionArgTypes (C : Record) : List Ty :=
  match C.targs with
  | some as => as.flatMap fun a => match a.kind with
    | .declaration t _ _ => (match t.unqual with | .fn r ps => r :: ps | _ => [])
    | _ => []
  | none => []

/-- What C++ guarantees about the graph of classes: no class is its own (indirect) base, no class is its own (indirect) template
argument, and no class is nested in itself. Bases and template arguments may form a cycle together (`class D : Base<D>`), so there
are separate ranks. -/
structure Env.Wellfounded (E : Env) : Prop where
  bases : ∀ i, ∀ b ∈ (E.cls i).bases, ∀ j, b.record = some j → E.baseRank j < E.baseRank i
  args : ∀ i, ∀ t ∈ (E.cls i).typeArgs ++ (E.cls i).functionArgTypes, ∀ j, t.target = some j → E.argRank j < E.argRank i
  nested : ∀ i, ∀ j ∈ E.nestedClasses (E.cls i), E.nestRank (E.nestedDefinition j) < E.nestRank i

end Binder.Cxx
