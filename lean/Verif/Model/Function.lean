import Verif.Model.Queries

/-!
# Model of the code generator of `source/function.cpp` and `source/enum.cpp`

Line numbers refer to `/repo/source/function.cpp` unless another file is named. Text and requests of a declaration are produced by
separate functions (`bindFunctionText`, `bindFunctionRequests`); the C++ functions do both at once.
-/

namespace Binder

open Cxx

variable (E : Env)

/-- `name_map` of `bind_function`, lines 393-400. -/
def lambdaReturnMap : List (Str × Str) :=
  [(c!"enum ", []), (c!"class ", []), (c!"struct ", []), (c!"const enum ", c!"const "), (c!"const class ", c!"const "),
   (c!"const struct ", c!"const ")]

/-- The return type of the lambda, lines 390-403. -/
def lambdaReturnType (F : Func) : Str :=
  lambdaReturnMap.foldl (fun r p => if beginsWith r p.1 then p.2 ++ r.drop p.1.length else r) (stdTy E F.ret)

/-- The variable `function_qualified_name` of `bind_function`, line 368. -/
def calledName (F : Func) (parent : Option Nat) : Str :=
  stdName E (match parent with
    | some p => classQualifiedName E (E.cls p) ++ c!"::" ++ F.name
    | none => F.qname)

/-- The variable `function_name` of `bind_function`, lines 366 and 373-377. -/
def boundName (F : Func) : Str :=
  (if F.isStatic then E.cfg.prefixForStaticMemberFunctions else []) ++ pythonFunctionName F

/-- The documentation of the direct binding, lines 383-386. -/
def functionDoc (F : Func) : Str :=
  let documentation := docString F.comment
  (if documentation.length ≠ 0 then documentation ++ c!"\\n\\n" else documentation) ++ c!"C++: " ++
    stdName E (F.qname ++ c!"(" ++ functionArguments E F ++ c!")" ++ maybeConst F ++ c!" --> " ++ stdTy E F.ret)

/-- The variable `function` of `bind_function` in the first case, line 381. -/
def directCallable (F : Func) (parent : Option Nat) : Str :=
  c!"(" ++ functionPointerType E F ++ c!") &" ++ calledName E F parent ++ functionTemplateText E F

/-- The variable `function` of `bind_function` in the second case, lines 388-413. -/
def lambdaCallable (F : Func) (k : Nat) (parent : Option Nat) : Str :=
  let args := lambdaArguments E F k
  match F.method with
  | some m =>
    if !m.isStatic then
      c!"[](" ++ classQualifiedName E (E.cls (parent.getD m.parent)) ++ maybeConst F ++ c!" &o" ++ (if k ≠ 0 then c!", " else []) ++
        args.1 ++ c!") -> " ++ lambdaReturnType E F ++ c!" { return o." ++ F.name ++ c!"(" ++ args.2 ++ c!"); }"
    else c!"[](" ++ args.1 ++ c!") -> " ++ lambdaReturnType E F ++ c!" { return " ++ calledName E F parent ++ c!"(" ++ args.2 ++ c!"); }"
  | none => c!"[](" ++ args.1 ++ c!") -> " ++ lambdaReturnType E F ++ c!" { return " ++ calledName E F parent ++ c!"(" ++ args.2 ++ c!"); }"

/-- The variable `maybe_return_policy`, lines 417-427. -/
def returnPolicy (F : Func) : Str :=
  if F.isInstance then
    if F.ret.isPointer then c!", " ++ E.cfg.memberPointerPolicy
    else if F.ret.isLRef then c!", " ++ E.cfg.memberLvaluePolicy
    else if F.ret.isRRef then c!", " ++ E.cfg.memberRvaluePolicy
    else []
  else
    if F.ret.isPointer then c!", " ++ E.cfg.staticPointerPolicy
    else if F.ret.isLRef then c!", " ++ E.cfg.staticLvaluePolicy
    else if F.ret.isRRef then c!", " ++ E.cfg.staticRvaluePolicy
    else []

/-- The `pybind11::arg` annotations, lines 435-439; class.cpp:1045-1049, 1060. -/
def argAnnotations (F : Func) (k : Nat) : Str := (F.params.take k).flatMap fun p => c!", pybind11::arg(\"" ++ p.name ++ c!"\")"

/-- The call guard, line 441. -/
def callGuard : Str :=
  if E.cfg.defaultCallGuard.isEmpty then [] else c!", pybind11::call_guard<" ++ E.cfg.defaultCallGuard ++ c!">()"

/-- `bind_function(F, args_to_bind, ...)`, lines 364-446: the binding that takes the first `k` arguments. -/
def bindOverload (F : Func) (k : Nat) (parent : Option Nat) (alwaysLambda : Bool) : Str :=
  let (function, documentation) :=
    if k = F.params.length && !alwaysLambda then (directCallable E F parent, functionDoc E F) else (lambdaCallable E F k parent, [])
  c!".def" ++ (if F.isStatic then c!"_static" else []) ++ c!"(\"" ++ boundName E F ++ c!"\", " ++ function ++ c!", \"" ++ documentation ++
    c!"\"" ++ returnPolicy E F ++ argAnnotations F k ++ callGuard E ++ c!");"

/-- `is_function_type`, type.cpp:71-77. -/
def isFunctionTy : Ty → Bool
  | .const t => isFunctionTy t
  | .ptr t => isFunctionTy t
  | .lref t => isFunctionTy t
  | .rref t => isFunctionTy t
  | .fn _ _ => true
  | _ => false

/-- The loop `for( ; args_to_bind < num_params; ++args_to_bind ) if( ...hasDefaultArg() ) break;`, lines 472-474; class.cpp:1160-1163,
from index 0. -/
def firstDefault : List Param → Nat
  | [] => 0
  | p :: ps => if p.hasDefault then 0 else firstDefault ps + 1

/-- The smallest number of arguments bound, lines 460-474. -/
def firstArity (F : Func) : Nat :=
  if F.params.any (fun p => isFunctionTy p.ty.canon) then F.params.length else firstDefault F.params

/-- `for( ; args_to_bind <= num_params; ++args_to_bind )`, line 476; class.cpp:1165. -/
def arities (first last : Nat) : List Nat := List.range' first (last + 1 - first)

/-- The annotation of lines 455-458; `noReturn` is false there and true in class.cpp:1042, 1084, 1112. -/
def signatureComment (F : Func) (noReturn : Bool) : Str :=
  c!"\t// function-signature: " ++ functionQualifiedName E F noReturn ++ c!"(" ++ functionArguments E F ++ c!")" ++ fileLine E F.incl F.line

/-- `bind_function(module, F, ...)`, lines 451-479. -/
def bindFunctionText (module : Str) (F : Func) (parent : Option Nat) (alwaysLambda : Bool) : Str :=
  (if E.opts.annotateFunctions then signatureComment E F false else []) ++
  (arities (firstArity F) F.params.length).flatMap fun k =>
    module ++ bindOverload E F k parent (alwaysLambda || F.isVariadic) ++ c!"\n"

/-- The requests of `bind_function`, lines 433-438; only the overload with all arguments makes them (line 476). -/
def bindFunctionRequests (F : Func) : List Str :=
  tyRequests E F.ret.canon ++ F.params.flatMap fun p => tyRequests E p.ty

/-- `Context::module_variable_name`, context.cpp:234-237. -/
def moduleVariable (ns : Str) : Str := c!"M(\"" ++ ns ++ c!"\")"

/-- `FunctionBinder::bind`, lines 617-627: the value of `code()`. -/
def functionCode (F : Func) : Str :=
  c!"\t// " ++ F.qname ++ c!"(" ++ functionArguments E F ++ c!")" ++ fileLine E F.incl F.line ++
  bindFunctionText E (c!"\t" ++ moduleVariable (nsOf E F.qname F.name)) F none false ++ c!"\n"

/-! ## Enumerations -/

/-- One enumerator, enum.cpp:135. -/
def enumeratorLine (e : Str × Str) : Str := c!"\t\t.value(\"" ++ e.1 ++ c!"\", " ++ e.2 ++ c!")\n"

/-- `bind_enum`, enum.cpp:117-143. -/
def bindEnumText (module : Str) (e : EnumD) : Str :=
  let head := c!"\tpybind11::enum_<" ++ e.qname ++ c!">(" ++ module ++ c!", \"" ++ e.name ++ c!"\"" ++
    (if e.isScoped then [] else c!", pybind11::arithmetic()") ++ c!", \"" ++ docString e.comment ++ c!"\"" ++
    (if answer (moduleLocalRequested E.cfg (nsOf E e.qname e.name)) then c!", pybind11::module_local()" else []) ++ c!")\n"
  let r := head ++ e.enumerators.flatMap enumeratorLine
  r.dropLast ++ (if e.isScopedUsingClassTag then c!";\n\n" else c!"\n\t\t.export_values();\n\n")

/-- `EnumBinder::bind`, enum.cpp:175-183: the value of `code()`. -/
def enumCode (e : EnumD) : Str :=
  c!"\t" ++ commentFor E e.qname e.incl e.line ++ bindEnumText E (moduleVariable (nsOf E e.qname e.name)) e ++ c!";\n\n"

end Binder
