import Verif.Model.Names

/-!
# Model of the decisions of `source/type.cpp`, `source/function.cpp`, `source/class.cpp`, `source/enum.cpp`

Which declarations can be bound, and which ones the user asked to bind or to skip. The static caches of `is_bindable`
(function.cpp:540-550, class.cpp:224-235) are left out here; theorem `C55_cache_transparent` is about them.
Recursion between classes goes through template arguments only; it uses `argRank` as fuel (see `Env.Wellfounded`).
-/

namespace Binder

open Cxx

variable (E : Env)

/-! ## Requests of the user -/

/-- The class `is_binding_requested(QualType)` and `is_skipping_requested(QualType)` end at, type.cpp:46-68: they follow pointers and
references, but not those hidden behind sugar; at the end `getAsCXXRecordDecl()` looks through sugar. -/
def namedClass : Ty → Option Nat
  | .const t => namedClass t
  | .ptr t => namedClass t
  | .lref t => namedClass t
  | .rref t => namedClass t
  | t => t.asRecord

/-- The answer for a type is the answer for the class it ends at, and no for other types: the last two lines of
`is_binding_requested(QualType)` and `is_skipping_requested(QualType)`, type.cpp:52-54, 65-67. -/
def viaClass (f : Nat → Except QueryError Bool) (t : Ty) : Except QueryError Bool :=
  match namedClass t with
  | some j => f j
  | none => .ok false

/-- `skip |= is_skipping_requested(t)` for a list of types: the answer of every type is computed, an exception ends the loop. -/
def anyM (f : Ty → Except QueryError Bool) (init : Bool) : List Ty → Except QueryError Bool
  | [] => .ok init
  | t :: ts => match f t with
    | .error e => .error e
    | .ok b => anyM f (init || b) ts

/-- `is_skipping_requested(CXXRecordDecl)`, class.cpp:348-364, with fuel. -/
def skipClassF : Nat → Nat → Except QueryError Bool
  | 0, _ => .ok false
  | n + 1, i =>
    let C := E.cls i
    let qualifiedName := stdName E C.qname
    let withTemplate := classQualifiedName E C
    if classSkippingRequested E.cfg withTemplate then .ok true
    else if classBindingRequested E.cfg withTemplate then .ok false
    else if classSkippingRequested E.cfg qualifiedName then .ok true
    else if classBindingRequested E.cfg qualifiedName then .ok false
    else match namespaceSkippingRequested E.cfg (nsOf E C.qname C.name) with
      | .error e => .error e
      | .ok skip => anyM (viaClass (skipClassF n)) skip C.typeArgs

/-- `is_skipping_requested(CXXRecordDecl)`, class.cpp:348-364. -/
def skipClass (i : Nat) : Except QueryError Bool := skipClassF E (E.argRank i + 1) i

/-- `is_skipping_requested(QualType)`, type.cpp:59-68. -/
def skipTy (t : Ty) : Except QueryError Bool := viaClass (skipClass E) t

/-- `is_binding_requested(CXXRecordDecl)`, class.cpp:334-345. -/
def bindClass (i : Nat) : Except QueryError Bool :=
  let C := E.cls i
  if classBindingRequested E.cfg (classQualifiedName E C) || classBindingRequested E.cfg (stdName E C.qname) then .ok true
  else if !E.opts.bindClassTemplateSpecialization && C.isSpecialization then .ok false
  else match namespaceBindingRequested E.cfg (nsOf E C.qname C.name) with
    | .error e => .error e
    | .ok bind => match anyM (skipTy E) false C.typeArgs with
      | .error e => .error e
      | .ok s => .ok (bind && !s)

/-- `is_binding_requested(QualType)`, type.cpp:46-55. -/
def bindTy (t : Ty) : Except QueryError Bool := viaClass (bindClass E) t

/-- `is_binding_requested(FunctionDecl)`, function.cpp:316-325. -/
def bindFunctionAsked (F : Func) : Except QueryError Bool :=
  if functionBindingRequested E.cfg F.qname || functionBindingRequested E.cfg (functionQualifiedName E F true) then .ok true
  else match namespaceBindingRequested E.cfg (nsOf E F.qname F.name) with
    | .error e => .error e
    | .ok bind => anyM (bindTy E) bind (functionTypes F)

/-- `is_skipping_requested(FunctionDecl)`, function.cpp:329-360. -/
def skipFunction (F : Func) : Except QueryError Bool :=
  let qualifiedName := stdName E F.qname
  let full := functionQualifiedName E F true
  if functionSkippingRequested E.cfg full then .ok true
  else if functionBindingRequested E.cfg full then .ok false
  else if functionSkippingRequested E.cfg qualifiedName then .ok true
  else if functionBindingRequested E.cfg qualifiedName then .ok false
  else match namespaceSkippingRequested E.cfg (nsOf E F.qname F.name) with
    | .error e => .error e
    | .ok skip =>
      let skip := skip || functionSkippingRequested E.cfg qualifiedName
      let skip := skip || (match F.method with
        | some m => (E.cls m.parent).isSpecialization &&
            functionSkippingRequested E.cfg (stdName E ((E.cls m.parent).qname ++ c!"::" ++ F.name))
        | none => false)
      anyM (skipTy E) skip (functionTypes F)

/-- `is_binding_requested(EnumDecl)`, enum.cpp:60-67. -/
def bindEnumAsked (e : EnumD) : Except QueryError Bool :=
  if enumBindingRequested E.cfg e.qname then .ok true else namespaceBindingRequested E.cfg (nsOf E e.qname e.name)

/-- `is_skipping_requested(EnumDecl)`, enum.cpp:70-82. -/
def skipEnum (e : EnumD) : Except QueryError Bool :=
  if enumSkippingRequested E.cfg (stdName E e.qname) then .ok true
  else if enumBindingRequested E.cfg (stdName E e.qname) then .ok false
  else namespaceSkippingRequested E.cfg (nsOf E e.qname e.name)

/-- The answer of a query inside the code generator. Simplification: a query that throws ends the whole run without writing a file; the
generator model is about runs that do not end that way, and takes `true` there. -/
def answer : Except QueryError Bool → Bool
  | .ok b => b
  | .error _ => true

/-! ## What can be bound -/

/-- `is_python_builtin(decl)`, type.cpp:683-786. -/
def builtinDecl (qname : Str) : Bool := isPythonBuiltin E.cfg E.opts.stl E.holder (stdName E qname)

/-- `is_banned_symbol(decl)`, type.cpp:789-811. -/
def bannedDecl (qname : Str) : Bool := isBannedSymbol (stdName E qname)

/-- `td->getAccess() == AS_protected or td->getAccess() == AS_private`, type.cpp:434, class.cpp:282. -/
def hidden (a : Access) : Bool := a == .prot || a == .priv

/-- The pointee names refused behind a pointer, type.cpp:405-408. -/
def refusedPointee (p : Ty) : Bool :=
  let n := stdName E (E.tyName p)
  beginsWith n c!"struct std::pair" || beginsWith n c!"const struct std::pair" || beginsWith n c!"class std::tuple" ||
    beginsWith n c!"const class std::tuple"

/-- The referent names refused behind a reference, type.cpp:419-420. -/
def refusedReferent (p : Ty) : Bool :=
  let n := stdName E (E.tyName p)
  beginsWith n c!"struct std::pair" || beginsWith n c!"class std::tuple"

/-- The checks of `is_bindable(QualType)` that do not depend on the syntactic form of the type: type.cpp:394-395, 430-436.
`recordOk` is `is_bindable(CXXRecordDecl)`. -/
def tyHeadOk (recordOk : Nat → Bool) (t : Ty) : Bool :=
  !t.isFnPointer && !t.isRRef && !t.dependent && !t.isArray &&
  (match t.asRecord with
    | some i => recordOk i && !hidden (E.cls i).access
    | none => true) &&
  (match t.asEnum with
    | some i => !hidden (E.enumD i).access
    | none => true)

/-- `is_bindable(QualType)`, type.cpp:390-439. All the `return false` and `r &= ...` of the code amount to a conjunction. -/
def tyBindableWith (recordOk : Nat → Bool) : Ty → Bool
  | .const t => tyBindableWith recordOk t
  | .ptr p => tyHeadOk E recordOk (.ptr p) && !p.isPointer && !p.isArray && !refusedPointee E p && tyBindableWith recordOk p
  | .lref p => tyHeadOk E recordOk (.lref p) && !refusedReferent E p && tyBindableWith recordOk p
  | .rref p => tyHeadOk E recordOk (.rref p) && !refusedReferent E p && tyBindableWith recordOk p
  | t => tyHeadOk E recordOk t

/-- `is_bindable_raw(CXXRecordDecl)`, class.cpp:246-331, with fuel for the types of `std::function`. -/
def classBindableF : Nat → Nat → Bool
  | 0, _ => false
  | n + 1, i =>
    let C := E.cls i
    let anonymousName := (Str.rfind c!")" C.qname).isSome
    if C.inAnonymousNamespace then false
    else if !C.hasNameForLinkage && !C.isMember then false
    else if anonymousName && C.hasNameForLinkage then false
    else if anonymousName && !C.hasNameForLinkage && !C.isAnonymous then false
    else if C.isDependent then false
    else if hidden C.access then false
    else if !C.isComplete &&
        !(C.isSpecialization &&
          (if C.qname = c!"std::function" then C.functionArgTypes.all (tyBindableWith E (classBindableF n))
           else C.hasInstantiationPoint || builtinDecl E C.qname)) then false
    else !bannedDecl E C.qname

/-- `is_bindable(CXXRecordDecl)`, class.cpp:224-331. -/
def classBindable (i : Nat) : Bool := classBindableF E (E.argRank i + 1) i

/-- `is_bindable(QualType)`, type.cpp:390-439. -/
def tyBindable (t : Ty) : Bool := tyBindableWith E (classBindable E) t

/-- The test for names with a parenthesis, function.cpp:512-517: `operator()` is allowed. -/
def parenthesisOk (qname : Str) : Bool :=
  match Str.rfind c!")" qname with
  | some i => decide (i > 0) && qname[i - 1]? == some '('
  | none => true

/-- `is_bindable(FunctionDecl)`, function.cpp:501-568. -/
def functionBindable (F : Func) : Bool :=
  parenthesisOk F.qname && !F.isDeleted &&
  !(F.isOperator && (F.method.isNone || (pythonOperator F.name F.params.length).length == 0)) &&
  F.templated != .functionTemplate && !F.isConversion &&
  tyBindable E F.ret && F.params.all (fun p => tyBindable E p.ty.canon) && !bannedDecl E F.qname

/-- `is_bindable(EnumDecl)`, enum.cpp:45-57. -/
def enumBindable (e : EnumD) : Bool := !e.isInstanceMember && !(e.name.isEmpty || (Str.rfind c!")" e.name).isSome)

/-- `is_bindable(FieldDecl)`, class.cpp:140-151. -/
def fieldBindable (f : Field) : Bool :=
  !(f.ty.isPointer || f.ty.isRef || f.ty.isArray) && !f.isAnonymous && tyBindable E f.ty

/-- `is_const_overload`, class.cpp:171-192. -/
def isConstOverload (m : Func) : Bool :=
  match m.method with
  | none => false
  | some mi => mi.isConst &&
    (let name := functionQualifiedName E m true
     decide (name.length > 6) &&
       (E.cls mi.parent).methods.any fun m' =>
         m'.access == mi.access && !m'.isConst && functionQualifiedName E m' true == name.take (name.length - 6))

/-! ## Requests the generator makes while it binds a declaration -/

/-- The name requested for the class or enum a type is, type.cpp:447-449. -/
def tagRequest (t : Ty) : List Str :=
  match t.head with
  | .record i => if (E.cls i).isComplete || (E.cls i).isSpecialization then [typeNameOfRecord E i] else []
  | .enum i => if (E.enumD i).isComplete then [typeNameOfEnum E i] else []
  | _ => []

/-- `request_bindings(QualType)`, type.cpp:443-455: the type names passed to `Context::request_bindings`, in order. -/
def tyRequests : Ty → List Str
  | .const t => tyRequests t
  | .ptr p => if answer (skipTy E (.ptr p)) then [] else tyRequests p
  | .lref p => if answer (skipTy E (.lref p)) then [] else tyRequests p
  | .rref p => if answer (skipTy E (.rref p)) then [] else tyRequests p
  | t => if answer (skipTy E t) then [] else tagRequest E t

end Binder
