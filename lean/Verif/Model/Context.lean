import Verif.Basic.Str
import Verif.Basic.Loop

/-!
# Model of `source/context.cpp`, part 1: registration, request propagation, dependency sorting

Line numbers refer to `/repo/source/context.cpp` unless another file is named.
-/

namespace Binder

/-- A `clang::CXXRecordDecl const *`: the pointer, `class_qualified_name` of the class and `is_python_builtin` of it.
Two values are equal exactly when they are the same pointer. -/
structure Rec where
  ptr : Nat
  name : Str
  builtin : Bool
deriving DecidableEq, Repr

/-- A `Binder` object (binder.hpp:68-126), as created by `BinderVisitor` (main.cpp:111-186): everything that clang, the
configuration and the code generator fix about it before `Context::generate` starts.
* `ident`: `id()`; `ns`: `namespace_from_named_decl(named_decl())`
* `typeName`: `typename_from_type_decl`, for a `TypeDecl` (class or enum)
* `record`: `named_decl()` if it is a `CXXRecordDecl` (the object is a `ClassBinder`)
* `canBind`: `is_bindable(decl)` and, for enums, `!is_banned_symbol`
* `builtin`: `is_python_builtin(named_decl())`; `inSystem`: `is_in_system_header()` (binder.cpp:88-96)
* `skipAsked`, `bindAsked`: `is_skipping_requested(decl, config)`, `is_binding_requested(decl, config)`.
  Simplification: these may throw on conflicting entries (C02); an exception ends the run before anything is bound.
* `genCode`, `genPrefix`: the text `bind` assigns to `code()` and `prefix_code()`
* `requests`: the type names for which `bind` calls `Context::request_bindings`, in order
* `deps`: the classes `bind` appends to `dependencies_` (class.cpp:969)
* `incl`: `relevant_include(named_decl())`; `includes`: what `add_relevant_includes` adds -/
structure Decl where
  ident : Str
  ns : Str
  typeName : Option Str
  record : Option Rec
  canBind : Bool
  builtin : Bool
  inSystem : Bool
  skipAsked : Bool
  bindAsked : Bool
  genCode : Str
  genPrefix : Str
  requests : List Str
  deps : List Rec
  incl : Str
  includes : List Str
deriving DecidableEq, Repr

/-- The members of `Context` that `add` changes (context.hpp:73-79). A `BinderOP` in `types` is the position of the object in
`binders`, which only grows while `types` is in use. `ids` is an unordered set, as a list. -/
structure Registry where
  binders : List Decl
  types : Str → Option Nat
  ids : List Str

/-- A freshly constructed `Context`. -/
def Registry.empty : Registry := ⟨[], fun _ => none, []⟩

/-- `Context::add`, lines 145-156. -/
def Registry.add (r : Registry) (b : Decl) : Registry :=
  if r.ids.contains b.ident then r
  else
    { binders := r.binders ++ [b]
      ids := b.ident :: r.ids
      types := match b.typeName with
        | some t => fun t' => if t' = t then some r.binders.length else r.types t'
        | none => r.types }

/-- The visitor offers declarations one after the other, main.cpp:111-186, 207-209. -/
def register (offers : List Decl) : Registry := offers.foldl Registry.add Registry.empty

/-! ## Request propagation -/

/-- The mutable part of all `Binder` objects (binder.hpp:123-125), by position; `log` records the calls of `Binder::bind` in
order (printed as `Binding: <id>` under `--v`, line 270). -/
structure BindState where
  requested : Nat → Bool
  skipping : Nat → Bool
  code : Nat → Str
  log : List Nat

/-- All flags down, no code (binder.hpp:123-125). -/
def BindState.init : BindState := ⟨fun _ => false, fun _ => false, fun _ => [], []⟩

/-- `Binder::is_binded`, binder.cpp:99-102. -/
def isBinded (st : BindState) (i : Nat) (d : Decl) : Bool := (st.code i).length != 0 || d.builtin

/-- `bindable()`: class.cpp:519-522 for classes, function.cpp:595-598 for functions, enum.cpp:154-157 for enums. -/
def bindable (st : BindState) (i : Nat) (d : Decl) : Bool :=
  if d.record.isSome then d.canBind && !(st.skipping i) else d.canBind

/-- `request_bindings_and_skipping`: class.cpp:526-530, function.cpp:602-606, enum.cpp:161-165; `both` is false when only the
skipping flag is passed. -/
def requestBindingsAndSkipping (st : BindState) (i : Nat) (d : Decl) (both : Bool) : BindState :=
  if d.skipAsked then { st with skipping := fun j => if j = i then true else st.skipping j }
  else if both && d.bindAsked then { st with requested := fun j => if j = i then true else st.requested j }
  else st

/-- First loop of `Context::bind`, lines 252-258, for the binder at position `i`. -/
def askConfig (ds : List Decl) (st : BindState) (i : Nat) : BindState :=
  match ds[i]? with
  | none => st
  | some d =>
    if bindable st i d then
      (if d.inSystem then requestBindingsAndSkipping st i d false else requestBindingsAndSkipping st i d true)
    else st

/-- `Context::request_bindings(type)`, lines 241-246. -/
def requestBindings (r : Registry) (st : BindState) (type : Str) : BindState :=
  match r.types type with
  | none => st
  | some j =>
    match r.binders[j]? with
    | none => st
    | some d =>
      if !(isBinded st j d) && bindable st j d && !(st.skipping j) && !d.builtin then
        { st with requested := fun k => if k = j then true else st.requested k }
      else st

/-- `Binder::bind`: the requests are made while the code is generated, the code is assigned at the end (class.cpp:1238-1418,
function.cpp:617-627, enum.cpp:175-183). -/
def bindOne (r : Registry) (st : BindState) (i : Nat) (d : Decl) : BindState :=
  let st := d.requests.foldl (requestBindings r) { st with log := st.log ++ [i] }
  { st with code := fun j => if j = i then d.genCode else st.code j }

/-- Body of the inner loop of `Context::bind`, lines 267-275; the second component is `flag`. -/
def passStep (r : Registry) (s : BindState × Bool) (i : Nat) : BindState × Bool :=
  match r.binders[i]? with
  | none => s
  | some d =>
    if !(isBinded s.1 i d) && bindable s.1 i d && s.1.requested i then (bindOne r s.1 i d, true) else s

/-- One execution of the body of `while( flag )`, lines 262-277, and the test that follows it. -/
def bindStep (r : Registry) (st : BindState) : BindState ⊕ BindState :=
  let s := (List.range r.binders.length).foldl (passStep r) (st, false)
  if s.2 then .inl s.1 else .inr s.1

/-- State in which the `while` loop of `Context::bind` starts, after lines 252-258. -/
def bindStart (r : Registry) : BindState := (List.range r.binders.length).foldl (askConfig r.binders) BindState.init

/-! ## Dependency sorting -/

/-- An element of `binders` after `Context::bind`: the object and its `code()`, empty if it was not bound. -/
structure SortItem where
  decl : Decl
  code : Str
deriving DecidableEq, Repr

/-- `dependencies()` of the element: `bind` appended those of `Decl.deps` (class.cpp:969) if it generated code. -/
def SortItem.deps (b : SortItem) : List Rec := if b.code.length != 0 then b.decl.deps else []

/-- `prefix_code()` of the element, assigned by `bind` (class.cpp:827-841, 1229). -/
def SortItem.pre (b : SortItem) : Str := if b.code.length != 0 then b.decl.genPrefix else []

/-- `Context::is_forward_needed`, lines 200-203; `binded` is a set of names. -/
def isForwardNeeded (binded : List Str) (c : Rec) : Bool := !(binded.contains c.name) && !c.builtin

/-- `std::rotate(b, e, end)` on the part of the vector from `b` on; `e` is an offset from `b`. -/
def rotateFrom (rest : List SortItem) (e : Nat) : List SortItem := rest.drop e ++ rest.take e

/-- The loop over the dependencies of one class, lines 294-315. `rest` is the part of the vector from `b` on, `rep` the flag
`repeat`; `none` is `std::exit(1)`. -/
def processDeps (binded : List Str) : List Rec → List SortItem → Bool → Option (List SortItem × Bool)
  | [], rest, rep => some (rest, rep)
  | c :: cs, rest, rep =>
    if !(isForwardNeeded binded c) then processDeps binded cs rest rep
    else match rest.findIdx? (fun p => p.decl.record == some c) with
      | none => if !rep then none else processDeps binded cs rest rep
      | some e => processDeps binded cs (rotateFrom rest e) true

/-- How one pass of the `while( repeat )` loop ends. -/
inductive PassEnd where
  | exit
  | again (l : List SortItem)
  | done (l : List SortItem)
deriving Repr

/-- The `for` loop over the binders, lines 291-319: `pre` are the elements already passed, the second argument the part of the
vector from `b` on. -/
def sortPass (pre : List SortItem) (binded : List Str) : List SortItem → PassEnd
  | [] => .done pre
  | b :: bs => match b.decl.record with
    | none => sortPass (pre ++ [b]) binded bs
    | some C => match processDeps binded b.deps (b :: bs) false with
      | none => .exit
      | some (rest, rep) => if rep then .again (pre ++ rest) else sortPass (pre ++ [b]) (C.name :: binded) bs

/-- One iteration of the `while( repeat )` loop of `Context::sort_binders`, lines 288-320. Result `none` is `std::exit(1)`. -/
def sortStep (l : List SortItem) : List SortItem ⊕ Option (List SortItem) :=
  match sortPass [] [] l with
  | .exit => .inr none
  | .again l' => .inl l'
  | .done l' => .inr (some l')

/-- The elements of `binders` after `Context::bind`. -/
def sortInput (r : Registry) (st : BindState) : List SortItem :=
  (r.binders.zipIdx).map fun (d, i) => ⟨d, st.code i⟩

end Binder
