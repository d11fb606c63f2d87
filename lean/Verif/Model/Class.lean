import Verif.Model.Function

/-!
# Model of the code generator of `source/class.cpp`

Line numbers refer to `/repo/source/class.cpp` unless another file is named. The C++ functions append text as they walk over the
members of a class. Here the walk and the text are separate: the walk yields the list of things that are emitted (`Item`, `Override`),
in the order in which the code emits them, and `itemText`, `overrideText` are the text the code appends for each.
-/

namespace Binder

open Cxx

variable (E : Env)

/-! ## Fields -/

/-- `is_inherited_from_enable_shared_from_this`, lines 110-122, with fuel. -/
def sharedFromThisF : Nat → Nat → Bool
  | 0, _ => false
  | n + 1, i =>
    (E.cls i).qname == c!"std::enable_shared_from_this" ||
    ((E.cls i).isComplete && (E.cls i).bases.any fun b => match b.record with | some j => sharedFromThisF n j | none => false)

/-- `is_inherited_from_enable_shared_from_this`, lines 110-122. -/
def sharedFromThis (i : Nat) : Bool := sharedFromThisF E (E.baseRank i + 1) i

/-- `is_field_assignable`, lines 125-137. `dyn_cast<RecordType>(QualType)` does not look through sugar. -/
def fieldAssignable (f : Field) : Bool :=
  match f.ty.unqual with
  | .record j => !((E.cls j).methods.any fun m =>
      (match m.method with | some mi => mi.isCopyAssign | none => false) && (m.access != .pub || m.isDeleted))
  | _ => true

/-- The class name after the loop of `bind_data_member`, lines 157-163. -/
def stripAnonymous (cls : Str) : Str :=
  [c!"::(anonymous)", "::(anonymous union)".toList].foldl (fun r a => if endsWith r a then r.take (r.length - a.length) else r) cls

/-- `bind_data_member`, lines 155-167. -/
def dataMemberText (f : Field) (cls : Str) : Str :=
  (if f.ty.isConst || !fieldAssignable E f then c!".def_readonly(\"" else c!".def_readwrite(\"") ++ f.name ++ c!"\", &" ++
    stripAnonymous cls ++ c!"::" ++ f.name ++ c!")"

/-- The fields found through public `using` declarations and bound, lines 572-589. -/
def usedFields (C : Record) : List Field :=
  C.members.flatMap fun
    | .using a targets => if a = .pub then targets.filterMap fun
        | .field f => if !fieldSkippingRequested E.cfg f.qname && fieldBindable E f then some f else none
        | _ => none
      else []
    | _ => []

/-- The own fields that are bound, lines 591-600. -/
def ownFields (C : Record) : List Field :=
  C.members.filterMap fun
    | .field f => if !fieldSkippingRequested E.cfg f.qname && (f.access == .pub && fieldBindable E f) then some f else none
    | _ => none

/-! ## Trampolines -/

/-- `callback_structure_name`, lines 604-608. -/
def callbackName (i : Nat) : Str :=
  let C := E.cls i
  let ns := replaceAll (nsOf E C.qname C.name) c!"::" c!"_"
  mangleTypeName (c!"PyCallBack_" ++ (if ns.isEmpty then [] else ns ++ c!"_") ++ pythonClassName E C) false

/-- The bases that are not private, as classes: the loop heads of lines 633-636, 808-811. -/
def nonPrivateBases (C : Record) : List Nat := C.bases.filterMap fun b => if b.access != .priv then b.record else none

/-- `is_callback_structure_needed`, lines 612-644, with fuel. -/
def callbackNeededF : Nat → Nat → Bool
  | 0, _ => false
  | n + 1, i =>
    let C := E.cls i
    if C.isAbstract && C.methods.any (fun m => m.isPure && isConstOverload E m) then false
    else if C.isFinal then false
    else C.methods.any (fun m => m.access != .priv && functionBindable E m && m.isVirtual && !m.isDtor) ||
      (nonPrivateBases C).any (callbackNeededF n)

/-- `is_callback_structure_needed`, lines 612-644. -/
def callbackNeeded (i : Nat) : Bool := callbackNeededF E (E.baseRank i + 1) i

/-- A pure virtual function that the trampoline cannot override, lines 651-656. -/
def pureBlocked (m : Func) : Bool :=
  m.isPure && !m.isCtor && (m.access == .priv || !functionBindable E m || answer (skipFunction E m))

/-- The test for one base of an abstract class, lines 658-667. -/
def baseConstructible (rec : Nat → Bool) (b : Base) : Bool :=
  match b.record with
  | some j => if b.access != .priv then rec j else !(E.cls j).isAbstract
  | none => true

/-- `is_callback_structure_constructible`, lines 647-671, with fuel. -/
def callbackConstructibleF : Nat → Nat → Bool
  | 0, _ => true
  | n + 1, i =>
    let C := E.cls i
    !C.isAbstract || (!C.methods.any (pureBlocked E) && C.bases.all (baseConstructible E (callbackConstructibleF n)))

/-- `is_callback_structure_constructible`, lines 647-671. -/
def callbackConstructible (i : Nat) : Bool := callbackConstructibleF E (E.baseRank i + 1) i

/-- The variable `trampoline` of `ClassBinder::bind`, lines 1255-1257; `callback_structure_constructible` has the same value. -/
def trampoline (i : Nat) : Bool := callbackNeeded E i && callbackConstructible E i

/-- The condition of lines 715-720; `is_overloadable` always answers yes (function.cpp:573-592). -/
def overridable (m : Func) : Bool :=
  m.access != .priv && functionBindable E m && !answer (skipFunction E m) && !m.isCtor && !m.isDtor && m.isVirtual && !isConstOverload E m

/-- The variable `key`, line 741. -/
def overrideKey (m : Func) : Str := m.name ++ c!"(" ++ (overloadArguments E m).1 ++ (if m.isConst then c!") const" else c!")")

/-- The variable `return_type`, lines 727-728. -/
def overrideReturn (m : Func) : Str := fixBooleanTypes (stdTy E m.ret)

/-- One member function of the callback structure: the class in which `bind_member_functions_for_call_back` found the method, the method,
and the number of the alias for its return type, if it needs one. -/
structure Override where
  cls : Nat
  method : Func
  alias : Option Nat
deriving Repr

/-- The variables `binded` and `ret_id` of `generate_prefix_code`, lines 836-837, and what has been emitted. -/
structure TrampolineState where
  binded : List Str
  retId : Nat
  out : List Override

/-- `m->hasAttr<FinalAttr>()`. -/
def methodFinal (m : Func) : Bool := match m.method with | some mi => mi.isFinal | none => false

/-- The body of the loop of `bind_member_functions_for_call_back`, lines 714-804, for the class `i`. -/
def overrideStep (i : Nat) (s : TrampolineState) (m : Func) : TrampolineState :=
  if !overridable E m then s
  else if s.binded.contains (overrideKey E m) then s
  else
    let s := { s with binded := overrideKey E m :: s.binded }
    if methodFinal m then s
    else if (overrideReturn E m).contains ',' then { s with retId := s.retId + 1, out := s.out ++ [⟨i, m, some s.retId⟩] }
    else { s with out := s.out ++ [⟨i, m, none⟩] }

/-- `bind_member_functions_for_call_back`, lines 709-824, with fuel. -/
def overridesF : Nat → TrampolineState → Nat → TrampolineState
  | 0, s, _ => s
  | n + 1, s, i => (nonPrivateBases (E.cls i)).foldl (overridesF n) ((E.cls i).methods.foldl (overrideStep E i) s)

/-- The member functions of the callback structure of class `i`, lines 836-838. -/
def overrides (i : Nat) : List Override := (overridesF E (E.baseRank i + 1) ⟨[], 0, []⟩ i).out

/-- `return_type_alias`, line 755. -/
def aliasName (k : Nat) : Str := c!"_binder_ret_" ++ natStr k

/-- `return_type` without a leading `class `, line 757. -/
def aliasedType (m : Func) : Str := if beginsWith (overrideReturn E m) c!"class " then (overrideReturn E m).drop 6 else overrideReturn E m

/-- `exception_specification`, lines 764-769: bit tests on the number of the exception specification. The enumerators are those of
clang since LLVM 9: `EST_DynamicNone` = 1, `EST_Dynamic` = 2, `EST_MSAny` = 3, `EST_BasicNoexcept` = 5. -/
def exceptionText (m : Func) : Str :=
  match m.method with
  | none => []
  | some mi =>
    let s := if mi.exceptionSpec &&& 5 != 0 then c!"noexcept " else []
    if mi.exceptionSpec &&& (1 ||| 2 ||| 3) != 0 then c!"throw() " else s

/-- `call_back_function_body_template`, lines 693-705. -/
def overrideBody (cls name args ret : Str) : Str :=
  "\npybind11::gil_scoped_acquire gil;\npybind11::function overload = pybind11::get_overload(static_cast<const ".toList ++ cls ++
  c!" *>(this), \"" ++ name ++ c!"\");\nif (overload) {\n" ++
  "\tauto o = overload.operator()<pybind11::return_value_policy::reference>(".toList ++ args ++ c!");\n" ++
  "\tif (pybind11::detail::cast_is_temporary_value_reference<".toList ++ ret ++ c!">::value) {\n" ++
  "\t\tstatic pybind11::detail::override_caster_t<".toList ++ ret ++ c!"> caster;\n" ++
  "\t\treturn pybind11::detail::cast_ref<".toList ++ ret ++ c!">(std::move(o), caster);\n\t}\n" ++
  "\treturn pybind11::detail::cast_safe<".toList ++ ret ++ c!">(std::move(o));\n}\n"

/-- The type an overriding function is declared with. -/
def overrideType (o : Override) : Str := match o.alias with | some k => aliasName k | none => overrideReturn E o.method

/-- What the overriding function does if Python does not override the method, lines 782-788. -/
def overrideFallback (o : Override) : Str :=
  if o.method.isPure then
    "\t\tpybind11::pybind11_fail(\"Tried to call pure virtual function \\\"".toList ++ (E.cls o.cls).name ++ c!"::" ++
      pythonFunctionName o.method ++ c!"\\\"\");\n"
  else c!"\t\treturn " ++ (E.cls o.cls).name ++ c!"::" ++ o.method.name ++ c!"(" ++ (overloadArguments E o.method).2 ++ c!");\n"

/-- The name under which a custom trampoline is looked up, lines 775-777. -/
def memberFunctionName (o : Override) : Str :=
  let C := E.cls o.cls
  let ns := nsOf E C.qname C.name
  (if ns.length > 0 then ns ++ c!"::" else ns) ++ C.name ++ c!"::" ++ o.method.name

/-- The body of an overriding function, lines 774-797. -/
def overrideBodyText (className : Str) (o : Override) : Str :=
  let custom := customTrampolineFunction E.cfg (memberFunctionName E o)
  let args := (overloadArguments E o.method).2
  if custom = [] then
    indent (overrideBody className (pythonFunctionName o.method) args (overrideType E o)) c!"\t\t" ++ overrideFallback E o
  else
    c!"\n\t\treturn " ++ custom ++ c!"<" ++ (E.cls o.cls).name ++ c!"," ++ callbackName E o.cls ++ c!">(this, \"" ++ className ++ c!"\", \"" ++
      o.method.name ++ c!"\"" ++ (if args.length > 0 then c!", " ++ args else []) ++ c!");\n"

/-- The declaration of the alias, line 758. -/
def aliasText (o : Override) : Str :=
  match o.alias with
  | some k => c!"\tusing " ++ aliasName k ++ c!" = " ++ aliasedType E o.method ++ c!";\n"
  | none => []

/-- What one overriding function adds to the callback structure, lines 754-798. -/
def overrideText (className : Str) (o : Override) : Str :=
  aliasText E o ++ c!"\t" ++ overrideType E o ++ c!" " ++ o.method.name ++ c!"(" ++ (overloadArguments E o.method).1 ++ c!")" ++
  maybeConst o.method ++ c!" " ++ exceptionText o.method ++ c!"override {" ++ overrideBodyText E className o ++ c!"\t}\n"

/-- `generate_prefix_code`, lines 827-841, called for classes with a trampoline (line 1259). -/
def callbackText (i : Nat) : Str :=
  let C := E.cls i
  commentFor E C.qname C.incl C.line ++ c!"struct " ++ callbackName E i ++ c!" : public " ++ classQualifiedName E C ++ c!" {\n\tusing " ++
  classQualifiedName E C ++ c!"::" ++ C.name ++ c!";\n\n" ++ (overrides E i).flatMap (overrideText E (classQualifiedName E C)) ++ c!"};\n\n"

/-! ## Members -/

/-- Something that `ClassBinder::bind` emits inside the block of a class. -/
inductive Item where
  /-- `bind_default_constructor` without a declaration, line 1369 -/
  | implicitDefault
  | defaultCtor (t : Func)
  | copyCtor (t : Func)
  | ctor (t : Func)
  | enum (id : Nat)
  /-- `bind_data_member(f, class_qualified_name(owner))` -/
  | field (owner : Nat) (f : Field)
  /-- `bind_function("\tcl", f, context, parent, always_use_lambda)` -/
  | method (f : Func) (parent : Option Nat) (alwaysLambda : Bool)
  | repr (F : Func)
  | addOn (name : Str)

/-- `binding_public_data_members`, lines 567-601. -/
def dataMembers (i : Nat) : List Item := (usedFields E (E.cls i) ++ ownFields E (E.cls i)).map (.field i)

/-- The conditions shared by lines 852, 868-871, 884-887. -/
def memberWanted (m : Func) : Bool :=
  functionBindable E m && !answer (skipFunction E m) && !m.isCtor && !m.isDtor && !isConstOverload E m

/-- The first loop of `binding_public_member_functions`, lines 847-880, for one declaration. -/
def memberItems (i : Nat) : Member → List Item
  | .using a targets => if a = .pub then targets.filterMap fun
      | .method m => if m.method.isSome && memberWanted E m then some (.method m (some i) true) else none
      | _ => none
    else []
  | .funcTemplate specs => specs.filterMap fun m =>
      if m.method.isSome && (m.access == .pub && memberWanted E m) then some (.method m none false) else none
  | _ => []

/-- `binding_public_member_functions`, lines 843-896. -/
def memberFunctions (i : Nat) : List Item :=
  (E.cls i).members.flatMap (memberItems E i) ++
  ((E.cls i).methods.filter fun m => m.access == .pub && memberWanted E m).map (.method · none false)

/-- The body of the loop of `binding_template_bases`, lines 905-916. -/
def templateBaseItems (rec : Nat → List Item) (b : Base) : List Item :=
  if b.access == .pub && !b.isVirtual then
    match b.record with
    | some j => if !answer (skipClass E j) then dataMembers E j ++ memberFunctions E j ++ rec j else []
    | none => []
  else []

/-- `binding_template_bases`, lines 899-920, with fuel. -/
def templateBasesF : Nat → Nat → List Item
  | 0, _ => []
  | n + 1, i => if (E.cls i).isSpecialization then (E.cls i).bases.flatMap (templateBaseItems E (templateBasesF n)) else []

/-- `binding_template_bases`, lines 899-920. -/
def templateBases (i : Nat) : List Item := templateBasesF E (E.baseRank i + 1) i

/-! ## Constructors -/

/-- `base_default_default_constructor_available`, lines 487-507, with fuel. -/
def baseDefaultsF : Nat → Nat → Bool
  | 0, _ => true
  | n + 1, i => (E.cls i).bases.all fun b => match b.record with
    | some j =>
      (E.cls j).hasDefaultConstructor &&
      !((E.cls j).methods.any fun t => t.isCtor && (t.isDefaultCtor && (t.access == .priv || t.isDeleted))) && baseDefaultsF n j
    | none => true

/-- `base_default_default_constructor_available`, lines 487-507. -/
def baseDefaults (i : Nat) : Bool := baseDefaultsF E (E.baseRank i + 1) i

/-- Which of the three constructor functions is called, lines 1316-1328, 1341-1347. -/
def ctorItem (t : Func) : Item :=
  if t.isCopyCtor then .copyCtor t else if t.isDefaultCtor && t.params.length == 0 then .defaultCtor t else .ctor t

/-- The constructors of `C` that are bound, lines 1312-1331. -/
def ownCtors (C : Record) : List Item :=
  (C.methods.filter fun t => t.isCtor && (t.access == .pub && !t.isMoveCtor && functionBindable E t && !answer (skipFunction E t))).map ctorItem

/-- The targets of the public `using` declarations that are constructors, lines 1334-1339. -/
def usedCtors (C : Record) : List Func :=
  C.members.flatMap fun
    | .using a targets => if a = .pub then targets.filterMap fun
        | .method t => if t.isCtor then some t else none
        | _ => none
      else []
    | _ => []

/-- The inherited constructors that are bound, lines 1340-1348. -/
def inheritedCtors (C : Record) : List Item :=
  ((usedCtors C).filter fun t => functionBindable E t && !t.isCopyCtor).map ctorItem

/-- `default_constructor_processed`, lines 1307, 1330, 1349. -/
def defaultProcessed (C : Record) : Bool :=
  C.methods.any (fun t => t.isCtor && t.isDefaultCtor) || (usedCtors C).any fun t => t.isDefaultCtor

/-- The constructors of class `i`, lines 1306-1372. -/
def ctorItems (i : Nat) : List Item :=
  let C := E.cls i
  if (!C.isAbstract || trampoline E i) && !C.isAnonymous then
    (if !defaultProcessed C && C.needsImplicitDefaultConstructor && baseDefaults E i then [.implicitDefault] else []) ++
    ownCtors E C ++ inheritedCtors E C
  else []

/-- The public enums of a class, lines 1375-1387. -/
def enumItems (C : Record) : List Item :=
  C.members.filterMap fun
    | .enum e => if (E.enumD e).access == .pub && enumBindable (E.enumD e) && !answer (skipEnum E (E.enumD e)) then some (.enum e) else none
    | _ => none

/-! ## `__str__` -/

/-- `insertion_operators.find(...)`, context.cpp:158-161, 170, 184: the last function added under a key. -/
def insertionOperator (key : Str) : Option Func := E.insertions.reverse.find? fun F => functionPointerType E F == key

/-- The key of a template `operator<<`, context.cpp:174-180. -/
def templateInsertionKey (C : Record) (args : List TArg) : Str :=
  let key := "std::ostream & (*)(std::ostream &, const ".toList ++ stdName E C.name ++ c!"<" ++
    (List.range args.length).flatMap (fun k => c!"type-parameter-0-" ++ natStr k ++ c!", ")
  fixBooleanTypes (key.dropLast.dropLast ++ c!">") ++ c!" &)"

/-- `Context::global_insertion_operator`, context.cpp:164-197. -/
def globalInsertion (i : Nat) : Option Func :=
  let C := E.cls i
  match insertionOperator E ("std::ostream & (*)(std::ostream &, const ".toList ++ (if C.isStruct then c!"struct " else c!"class ") ++
      classQualifiedName E C ++ c!" &)") with
  | some F => some F
  | none => match C.targs with
    | some args => insertionOperator E (templateInsertionKey E C args)
    | none => none

/-- `ClassBinder::bind_repr`, lines 1172-1194. -/
def reprItems (i : Nat) : List Item :=
  let C := E.cls i
  if functionSkippingRequested E.cfg (classQualifiedName E C ++ c!"::__str__") ||
      functionSkippingRequested E.cfg (stdName E (C.qname ++ c!"::__str__")) then []
  else match globalInsertion E i with
    | some F => [.repr F]
    | none => []

/-- The call of an add-on binder, lines 1398-1399. -/
def addOnItems (C : Record) : List Item :=
  match E.cfg.addOnBinders (stdName E C.qname) with
  | some b => [.addOn b]
  | none => []

/-- Everything emitted for a class before its nested classes, lines 1306-1399. -/
def classItems (i : Nat) : List Item :=
  ctorItems E i ++ enumItems E (E.cls i) ++ dataMembers E i ++ memberFunctions E i ++ templateBases E i ++ reprItems E i ++
  addOnItems E (E.cls i)

/-! ## Text of the members -/

/-- `fmt::format(constructor_template, params, args, type)`, line 1018; with `extra` also line 1019. -/
def newLambda (params args type : Str) : Str := c!"[](" ++ params ++ c!"){ return new " ++ type ++ c!"(" ++ args ++ c!"); }"

/-- `trampoline_name`, line 1277. -/
def trampolineName (i : Nat) : Str := if trampoline E i then callbackName E i else []

/-- `bind_constructor(CBI, args_to_bind)`, lines 1029-1073. -/
def ctorText (i : Nat) (t : Func) (k : Nat) : Str :=
  (if E.opts.annotateFunctions then signatureComment E t true else []) ++
  (if k = t.params.length && !t.isVariadic then
    c!"\tcl.def( pybind11::init<" ++ functionArguments E t ++ c!">()" ++ argAnnotations t k ++ c!" );\n"
  else
    let args := lambdaArguments E t k
    let params := if k ≠ 0 then args.1 else []
    if (E.cls i).isAbstract then c!"\tcl.def( pybind11::init( " ++ newLambda params args.2 (trampolineName E i) ++ c!" ), \"doc\");"
    else if trampoline E i then
      c!"\tcl.def( pybind11::init( " ++ newLambda params args.2 (classQualifiedName E (E.cls i)) ++ c!", " ++
        newLambda params args.2 (trampolineName E i) ++ c!" ), \"doc\");"
    else
      c!"\tcl.def( pybind11::init( " ++ newLambda params args.2 (classQualifiedName E (E.cls i)) ++ c!" ), \"doc\" " ++ argAnnotations t k ++
        c!");")

/-- `bind_constructor(CBI)`, lines 1156-1168. -/
def ctorsText (i : Nat) (t : Func) : Str :=
  (arities (firstDefault t.params) t.params.length).flatMap fun k => ctorText E i t k ++ c!"\n"

/-- `bind_default_constructor`, lines 1077-1101. -/
def defaultCtorText (i : Nat) (t : Option Func) : Str :=
  let q := classQualifiedName E (E.cls i)
  (if E.opts.annotateFunctions then
    (match t with | some F => signatureComment E F true | none => c!"\t// function-signature: " ++ q ++ c!"()\n")
   else []) ++
  (if (E.cls i).isAbstract then c!"\tcl.def( pybind11::init( " ++ newLambda [] [] (trampolineName E i) ++ c!" ) );\n"
   else if trampoline E i then
    c!"\tcl.def( pybind11::init( " ++ newLambda [] [] q ++ c!", " ++ newLambda [] [] (trampolineName E i) ++ c!" ) );\n"
   else c!"\tcl.def( pybind11::init( " ++ newLambda [] [] q ++ c!" ) );\n")

/-- `const_bit`, lines 1131-1137. -/
def constBit (t : Func) : Str :=
  match t.method with
  | some ⟨_, _, .ctor _ _ (some true), _, _, _, _, _, _, _⟩ => c!" const"
  | _ => []

/-- `bind_copy_constructor`, lines 1105-1153. -/
def copyCtorText (i : Nat) (t : Func) : Str :=
  let copy := fun x : Str => c!"\tcl.def( pybind11::init( " ++ newLambda (x ++ constBit t ++ c!" &o") c!"o" x ++ c!" ) );\n"
  let q := classQualifiedName E (E.cls i)
  (if E.opts.annotateFunctions then signatureComment E t true else []) ++
  (if trampoline E i then
    if (E.cls i).isAbstract then c!"\tcl.def(pybind11::init<" ++ trampolineName E i ++ constBit t ++ c!" &>());\n"
    else copy (trampolineName E i) ++ (if t.access == .pub then copy q else [])
  else copy q)

/-- `bind_repr`, lines 1181-1188. -/
def reprText (i : Nat) (F : Func) : Str :=
  let ns := nsOf E F.qname F.name
  c!"\n\tcl.def(\"__str__\", [](" ++ classQualifiedName E (E.cls i) ++ " const &o) -> std::string { std::ostringstream s;".toList ++
  (if ns.length ≠ 0 then c!" using namespace " ++ ns ++ c!";" else []) ++ c!" s << o; return s.str(); } );\n"

/-- The text appended for an item. -/
def itemText (i : Nat) : Item → Str
  | .implicitDefault => defaultCtorText E i none
  | .defaultCtor t => defaultCtorText E i (some t)
  | .copyCtor t => copyCtorText E i t
  | .ctor t => ctorsText E i t
  | .enum e => c!"\n" ++ bindEnumText E c!"cl" (E.enumD e)
  | .field owner f => c!"\tcl" ++ dataMemberText E f (classQualifiedName E (E.cls owner)) ++ c!";\n"
  | .method f parent lam => bindFunctionText E c!"\tcl" f parent lam
  | .repr F => reprText E i F
  | .addOn b => c!"\n\t" ++ b ++ c!"(cl);\n"

/-- The requests made for an item: lines 1050 (constructors), function.cpp:433-438 (functions). -/
def itemRequests : Item → List Str
  | .ctor t => if t.isVariadic then [] else t.params.flatMap fun p => tyRequests E p.ty
  | .method f _ _ => bindFunctionRequests E f
  | _ => []

/-! ## The class -/

/-- The bases named in the `class_` statement, lines 951-977. -/
def boundBases (C : Record) : List Nat :=
  C.bases.filterMap fun b =>
    if b.access == .pub then
      match b.record with
      | some j =>
        if !([c!"std::enable_shared_from_this", c!"std::string", c!"std::basic_string", c!"std::pair", c!"std::tuple"].contains
            (stdName E (E.cls j).qname)) && classBindable E j && !answer (skipClass E j) then some j else none
      | none => none
    else none

/-- `maybe_holder_type`, lines 1282-1289. -/
def holderText (i : Nat) : Str :=
  let q := classQualifiedName E (E.cls i)
  if sharedFromThis E i then c!", " ++ E.cfg.holderType ++ c!"<" ++ q ++ c!">"
  else match (E.cls i).dtorAccess with
    | some a => if a != .pub then c!", " ++ q ++ c!"*" else c!", " ++ E.cfg.holderType ++ c!"<" ++ q ++ c!">"
    | none => c!", " ++ E.cfg.holderType ++ c!"<" ++ q ++ c!">"

/-- `C->isCXXClassMember() and named_class`, lines 1261, 1265, 1273. -/
def isEnclosed (C : Record) : Bool := C.isMember && !C.isAnonymous

/-- The `class_` statement, lines 1293-1301. -/
def classStatement (i : Nat) : Str :=
  let C := E.cls i
  let q := classQualifiedName E C
  let q0 := stdName E C.qname
  (if smartHolderRequested E.cfg q0 then
    c!"\tPYBIND11_TYPE_CASTER_BASE_HOLDER(" ++ q ++ c!" " ++ holderText E i ++ c!")\n" else []) ++
  c!"\tpybind11::class_<" ++ q ++ holderText E i ++ (if trampoline E i then c!", " ++ callbackName E i else []) ++
  (boundBases E C).flatMap (fun j => c!", " ++ classQualifiedName E (E.cls j)) ++ c!"> cl(" ++
  (if isEnclosed C then c!"enclosing_class" else moduleVariable (nsOf E C.qname C.name)) ++ c!", \"" ++ pythonClassName E C ++ c!"\", \"" ++
  docString C.comment ++ c!"\"" ++
  (if answer (moduleLocalRequested E.cfg (nsOf E C.qname C.name)) then c!", pybind11::module_local()" else []) ++
  (if bufferProtocolRequested E.cfg q0 then c!", pybind11::buffer_protocol()" else []) ++ c!");\n"

/-- The text before the members, lines 1267-1301. -/
def classHead (i : Nat) : Str :=
  let C := E.cls i
  c!"{ " ++ commentFor E C.qname C.incl C.line ++ (if isEnclosed C then c!"\tauto & enclosing_class = cl;\n" else []) ++
  (if !C.isAnonymous then classStatement E i else [])

/-- `bind_with`, lines 980-1000. -/
def bindWithText (i : Nat) (binder : Str) : Str :=
  let C := E.cls i
  c!"\t" ++ commentFor E C.qname C.incl C.line ++ c!"\t" ++ binder ++ stdName E (classTemplateText C) ++ c!"(" ++
  moduleVariable (nsOf E C.qname C.name) ++
  (C.targs.getD []).flatMap (fun a => c!", \"" ++ fixBooleanTypes (mangleTypeName (stdName E a.text) true) ++ c!"\"") ++ c!");\n\n"

/-- What `ClassBinder::bind` leaves in the object and in the context: `code()`, `prefix_code()`, the requested type names,
`dependencies()` and `prefix_includes_`. -/
structure ClassOutput where
  code : Str
  pre : Str
  requests : List Str
  deps : List Nat
  prefixIncludes : List Func

/-- A fresh binder. -/
def ClassOutput.empty : ClassOutput := ⟨[], [], [], [], []⟩

/-- The nested classes that are bound, lines 1214-1234: the first declaration of each, or its definition if there is one. -/
def nestedBound (C : Record) : List Nat :=
  (((E.nestedClasses C).filter fun j => (E.cls j).isFirstDecl).map E.nestedDefinition).filter fun j => classBindable E j

/-- `ClassBinder::bind`, lines 1238-1418, with fuel for the nested classes. -/
def bindClassTextF : Nat → Nat → ClassOutput
  | 0, _ => .empty
  | n + 1, i =>
    let C := E.cls i
    if builtinDecl E C.qname then .empty
    else match E.cfg.binders (stdName E C.qname) with
      | some b => ⟨bindWithText E i b, [], [], [], []⟩
      | none =>
        let items := classItems E i
        let bases := if !C.isAnonymous then boundBases E C else []
        let nested := (nestedBound E C).map (bindClassTextF n)
        let nestedCode := nested.flatMap fun o => o.code ++ c!"\n"
        { code := indent (classHead E i ++ items.flatMap (itemText E i) ++ (if nestedCode.isEmpty then nestedCode else c!"\n" ++ nestedCode) ++
            c!"}\n") c!"\t"
          pre := (if trampoline E i then callbackText E i else []) ++ nested.flatMap (·.pre)
          requests := bases.flatMap (fun j => tyRequests E (.record j)) ++ items.flatMap (itemRequests E) ++ nested.flatMap (·.requests)
          deps := bases
          prefixIncludes := (if trampoline E i then (overrides E i).map (·.method) else []) ++
            items.filterMap (fun | .repr F => some F | _ => none) }

/-- `ClassBinder::bind`, lines 1238-1418. -/
def classOutput (i : Nat) : ClassOutput := bindClassTextF E (E.nestRank i + 1) i

end Binder
