import Verif.Model.Queries
import Verif.Basic.TyEq

/-!
# Model of the static caches: `source/type.cpp`, `source/class.cpp`, `source/function.cpp`

`standard_name`, `simplify_std_class_name`, `is_bindable(CXXRecordDecl)` and `is_bindable(FunctionDecl)` keep their results in static
tables, which they fill while they call each other. The four functions are modelled together: a computation (`Ask`) is a tree of the calls
it makes to cached functions; `memoF` runs it with the tables. The tables are static, so they live as long as the process.
-/

namespace Binder

open Cxx

/-- A computation that calls cached functions: `ask k f` calls the function with the arguments `k` and goes on with the result. -/
inductive Ask (K V α : Type) where
  | done (a : α)
  | ask (k : K) (next : V → Ask K V α)

namespace Ask

variable {K V α β : Type}

/-- One computation after the other. -/
def bind : Ask K V α → (α → Ask K V β) → Ask K V β
  | .done a, f => f a
  | .ask k next, f => .ask k fun v => (next v).bind f

/-- The result of a computation if the calls are answered by a function, without tables. -/
def eval (answers : K → V) : Ask K V α → α
  | .done a => a
  | .ask k next => (next (answers k)).eval answers

/-- The result of a computation, and the tables after it, if calls are made with `query`; `none`: out of fuel. -/
def run (query : K → (K → Option V) → Option (V × (K → Option V))) : Ask K V α → (K → Option V) → Option (α × (K → Option V))
  | .done a, c => some (a, c)
  | .ask k next, c => match query k c with
    | none => none
    | some (v, c') => (next v).run query c'

end Ask

/-- `cache.insert({k, v})`, `cache.emplace(k, v)`, `cache.try_emplace(k, v)`: an entry that is there is kept. -/
def insertCache {K V : Type} [DecidableEq K] (c : K → Option V) (k : K) (v : V) : K → Option V :=
  match c k with
  | some _ => c
  | none => fun x => if x = k then some v else c x

/-- The pattern of type.cpp:540-549, 660-669, class.cpp:224-233, function.cpp:540-549: look into the table, and if there is no entry, run
the `_raw` function and insert its result. With fuel. -/
def memoF {K V : Type} [DecidableEq K] (raw : K → Ask K V V) : Nat → K → (K → Option V) → Option (V × (K → Option V))
  | 0, _, _ => none
  | n + 1, k, c => match c k with
    | some v => some (v, c)
    | none => match (raw k).run (memoF raw n) c with
      | none => none
      | some (v, c') => some (v, insertCache c' k v)

/-- A history of calls from outside. -/
def historyF {K V : Type} [DecidableEq K] (raw : K → Ask K V V) (n : Nat) : List K → (K → Option V) → Option (List V × (K → Option V))
  | [], c => some ([], c)
  | k :: ks, c => match memoF raw n k c with
    | none => none
    | some (v, c') => match historyF raw n ks c' with
      | none => none
      | some (vs, c'') => some (v :: vs, c'')

/-! ## The cached functions -/

/-- A call of a cached function: `standard_name(s)`, `simplify_std_class_name(s)`, `is_bindable` of a class and of a function. -/
inductive Call where
  | standard (s : Str)
  | simplify (s : Str)
  | cls (i : Nat)
  | fn (F : Func)
deriving DecidableEq

/-- The result of a call: a name or a decision. -/
inductive Result where
  | name (s : Str)
  | decision (b : Bool)
deriving DecidableEq

/-- The name in a result. -/
def Result.str : Result → Str
  | .name s => s
  | .decision _ => []

/-- The decision in a result. -/
def Result.bool : Result → Bool
  | .name _ => false
  | .decision b => b

/-- A computation with calls of the cached functions. -/
abbrev Calls (α : Type) := Ask Call Result α

/-- A call of `standard_name`. -/
def callStandard (s : Str) : Calls Str := .ask (.standard s) fun r => .done r.str
/-- A call of `is_bindable(CXXRecordDecl)`. -/
def callClass (i : Nat) : Calls Bool := .ask (.cls i) fun r => .done r.bool

/-- `&&` of C++: the second operand is not computed if the first is false. -/
def Ask.and {K V : Type} (a b : Ask K V Bool) : Ask K V Bool := a.bind fun x => if x then b else .done false

/-- `r &= x`: the second operand is always computed. -/
def Ask.both {K V : Type} (a b : Ask K V Bool) : Ask K V Bool := a.bind fun x => b.bind fun y => .done (x && y)

variable (E : Env)

/-- `standard_name_raw`, type.cpp:492-537, with its calls. -/
def standardNameCalls (type : Str) : Calls Str :=
  let r := applyNameMap type
  if beginsWith r c!"std::" then .ask (.simplify (r.drop 5)) fun s => .done (fixBooleanTypes (c!"std::" ++ s.str))
  else .done (fixBooleanTypes r)

/-- `is_banned_symbol`, type.cpp:789-811, with its calls. -/
def bannedCalls (qname : Str) : Calls Bool := (callStandard qname).bind fun n => .done (isBannedSymbol n)

/-- `is_python_builtin`, type.cpp:683-786, with its calls. -/
def builtinCalls (qname : Str) : Calls Bool := (callStandard qname).bind fun n => .done (isPythonBuiltin E.cfg E.opts.stl E.holder n)

/-- The part of `is_bindable(QualType)` at the end, type.cpp:430-436, with its calls. -/
def tagCalls (t : Ty) : Calls Bool :=
  match t.asRecord with
  | some i => (callClass i).bind fun r => .done (r && !hidden (E.cls i).access)
  | none => match t.asEnum with
    | some i => .done (!hidden (E.enumD i).access)
    | none => .done true

/-- The test of `is_bindable(QualType)` that comes first, type.cpp:394-395. -/
def tyFormOk (t : Ty) : Bool := !t.isFnPointer && !t.isRRef && !t.dependent && !t.isArray

/-- `is_bindable(QualType)`, type.cpp:390-439, with its calls. -/
def tyCalls : Ty → Calls Bool
  | .const t => tyCalls t
  | .ptr p =>
    if p.isPointer then .done false
    else if p.isArray then .done false
    else (callStandard (E.tyName p)).bind fun n =>
      if beginsWith n c!"struct std::pair" || beginsWith n c!"const struct std::pair" || beginsWith n c!"class std::tuple" ||
        beginsWith n c!"const class std::tuple" then .done false
      else Ask.both ((tyCalls p).bind fun b => .done (tyFormOk (.ptr p) && b)) (tagCalls E (.ptr p))
  | .lref p => (callStandard (E.tyName p)).bind fun n =>
    if beginsWith n c!"struct std::pair" || beginsWith n c!"class std::tuple" then .done false
    else Ask.both ((tyCalls p).bind fun b => .done (tyFormOk (.lref p) && b)) (tagCalls E (.lref p))
  | .rref p => (callStandard (E.tyName p)).bind fun n =>
    if beginsWith n c!"struct std::pair" || beginsWith n c!"class std::tuple" then .done false
    else Ask.both ((tyCalls p).bind fun b => .done (tyFormOk (.rref p) && b)) (tagCalls E (.rref p))
  | t => Ask.both (.done (tyFormOk t)) (tagCalls E t)

/-- The loops of `is_std_function_bindable`, class.cpp:195-218: the first type that cannot be bound ends them. -/
def allCalls : List Ty → Calls Bool
  | [] => .done true
  | t :: ts => Ask.and (tyCalls E t) (allCalls ts)

/-- `is_bindable_raw(CXXRecordDecl)`, class.cpp:246-331, with its calls. -/
def classCalls (i : Nat) : Calls Bool :=
  let C := E.cls i
  let anonymousName := (Str.rfind c!")" C.qname).isSome
  if C.inAnonymousNamespace then .done false
  else if !C.hasNameForLinkage && !C.isMember then .done false
  else if anonymousName && C.hasNameForLinkage then .done false
  else if anonymousName && !C.hasNameForLinkage && !C.isAnonymous then .done false
  else if C.isDependent then .done false
  else if hidden C.access then .done false
  else
    let complete : Calls Bool :=
      if C.isComplete then .done true
      else if C.isSpecialization then
        (if C.qname = c!"std::function" then allCalls E C.functionArgTypes
         else if C.hasInstantiationPoint then .done true
         else builtinCalls E C.qname)
      else .done false
    Ask.and complete ((bannedCalls C.qname).bind fun b => .done (!b))

/-- `r &= is_bindable(...)` for the parameters, function.cpp:529. -/
def paramCalls : List Ty → Calls Bool
  | [] => .done true
  | t :: ts => Ask.both (tyCalls E t) (paramCalls ts)

/-- `is_bindable_raw(FunctionDecl)`, function.cpp:501-537, with its calls. -/
def functionCalls (F : Func) : Calls Bool :=
  if !parenthesisOk F.qname then .done false
  else if F.isOperator && (F.method.isNone || (pythonOperator F.name F.params.length).length == 0) then .done false
  else
    (Ask.both (tyCalls E F.ret) (paramCalls E (F.params.map fun p => p.ty.canon))).bind fun b =>
      if !F.isDeleted && F.templated != .functionTemplate && !F.isConversion && b then (bannedCalls F.qname).bind fun b => .done (!b)
      else .done false

/-- The four `_raw` functions. -/
def rawCalls : Call → Calls Result
  | .standard s => (standardNameCalls s).bind fun r => .done (.name r)
  | .simplify s => .done (.name (E.simplify s))
  | .cls i => (classCalls E i).bind fun b => .done (.decision b)
  | .fn F => (functionCalls E F).bind fun b => .done (.decision b)

/-- The translation units of one run of the program, main.cpp:235-245 (`ClangTool::run` handles the source files one after the other): the
calls made for each of them. The tables are static variables: they pass from one unit to the next. The keys `CXXRecordDecl const *` and
`FunctionDecl const *` are addresses; the declarations of a unit are gone when the next one begins, so an address can come back as
another declaration. -/
def unitsF (n : Nat) : List (Env × List Call) → (Call → Option Result) → Option (List (List Result))
  | [], _ => some []
  | (E, ks) :: us, c => match historyF (rawCalls E) n ks c with
    | none => none
    | some (vs, c') => match unitsF n us c' with
      | none => none
      | some out => some (vs :: out)

end Binder
