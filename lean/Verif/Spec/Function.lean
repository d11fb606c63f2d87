import Verif.Basic.Str
import Verif.Model.Ast
import Verif.Model.Config

/-!
# Specification: what a function binding has to look like

Only the AST types of `Verif.Model.Ast` are used, no function of the model.
-/

namespace Binder.Spec

open Cxx

/-! ## Operators -/

/-- The Python special method with the same meaning as a C++ member operator that takes `n` arguments besides the object
(Python data model: unary and binary arithmetic, in-place arithmetic, comparison, call and subscript). -/
def specialMethod : List (Str × Nat × Str) :=
  [(c!"operator+", 0, c!"__pos__"), (c!"operator-", 0, c!"__neg__"), (c!"operator~", 0, c!"__invert__"),
   (c!"operator+", 1, c!"__add__"), (c!"operator-", 1, c!"__sub__"), (c!"operator*", 1, c!"__mul__"),
   (c!"operator/", 1, c!"__truediv__"), (c!"operator%", 1, c!"__mod__"), (c!"operator|", 1, c!"__or__"),
   (c!"operator&", 1, c!"__and__"), (c!"operator^", 1, c!"__xor__"), (c!"operator<<", 1, c!"__lshift__"),
   (c!"operator>>", 1, c!"__rshift__"), (c!"operator+=", 1, c!"__iadd__"), (c!"operator-=", 1, c!"__isub__"),
   (c!"operator*=", 1, c!"__imul__"), (c!"operator/=", 1, c!"__itruediv__"), (c!"operator%=", 1, c!"__imod__"),
   (c!"operator|=", 1, c!"__ior__"), (c!"operator&=", 1, c!"__iand__"), (c!"operator^=", 1, c!"__ixor__"),
   (c!"operator<<=", 1, c!"__ilshift__"), (c!"operator>>=", 1, c!"__irshift__"), (c!"operator==", 1, c!"__eq__"),
   (c!"operator!=", 1, c!"__ne__"), (c!"operator[]", 1, c!"__getitem__")]

/-- Names for member operators without a Python counterpart. -/
def plainMethod : List (Str × Nat × Str) :=
  [(c!"operator*", 0, c!"dereference"), (c!"operator=", 1, c!"assign"), (c!"operator++", 0, c!"pre_increment"),
   (c!"operator++", 1, c!"post_increment"), (c!"operator--", 0, c!"pre_decrement"), (c!"operator--", 1, c!"post_decrement"),
   (c!"operator->", 0, c!"arrow")]

/-- The numbers of arguments, besides the object, with which C++ lets one declare a member operator; `operator()` takes any number. -/
def legalArity (op : Str) (n : Nat) : Prop :=
  if op ∈ [c!"operator+", c!"operator-", c!"operator*", c!"operator&", c!"operator++", c!"operator--"] then n = 0 ∨ n = 1
  else if op ∈ [c!"operator~", c!"operator!", c!"operator->"] then n = 0
  else if op = c!"operator()" then True
  else n = 1

/-! ## Bindings -/

/-- A pybind11 `def` statement, from `.def` to `;`. -/
structure Def where
  isStatic : Bool
  pyName : Str
  callable : Str
  doc : Str
  policy : Option Str
  keywords : List Str
  guard : Option Str

/-- C++ text of a `def` statement. -/
def Def.text (d : Def) : Str :=
  c!".def" ++ (if d.isStatic then c!"_static" else []) ++ c!"(\"" ++ d.pyName ++ c!"\", " ++ d.callable ++ c!", \"" ++ d.doc ++ c!"\"" ++
  (d.policy.map fun p => c!", " ++ p).getD [] ++
  (d.keywords.map fun k => c!", pybind11::arg(\"" ++ k ++ c!"\")").flatten ++
  (d.guard.map fun g => c!", pybind11::call_guard<" ++ g ++ c!">()").getD [] ++ c!");"

/-- A lambda that forwards to one call. Parameters are pairs of declared type and name. -/
structure Lambda where
  params : List (Str × Str)
  ret : Str
  callee : Str
  args : List Str

/-- Strings with `", "` between them. -/
def listText (xs : List Str) : Str := List.intercalate c!", " xs

/-- C++ text of a forwarding lambda. -/
def Lambda.text (l : Lambda) : Str :=
  c!"[](" ++ listText (l.params.map fun p => p.1 ++ p.2) ++ c!") -> " ++ l.ret ++ c!" { return " ++ l.callee ++ c!"(" ++ listText l.args ++
  c!"); }"

/-- The address of a function, cast to the type of exactly this overload. -/
structure Pointer where
  ret : Str
  cls : Str
  types : List Str
  isConst : Bool
  target : Str

/-- C++ text of a casted function address: `(R (C::*)(T0, T1) const) &target`. -/
def Pointer.text (p : Pointer) : Str :=
  c!"(" ++ p.ret ++ c!" (" ++ p.cls ++ c!"*)(" ++ listText p.types ++ c!")" ++ (if p.isConst then c!" const" else []) ++ c!") &" ++ p.target

/-- The names `a0`, `a1`, ..., `a(k-1)`. -/
def argNames (k : Nat) : List Str := (List.range k).map fun i => 'a' :: Nat.toDigits 10 i

/-- A parameter that is a function, a pointer to a function, or a reference to one, possibly through several levels. -/
inductive IsFunction : Ty → Prop where
  | fn {r ps} : IsFunction (.fn r ps)
  | ptr {t} : IsFunction t → IsFunction (.ptr t)
  | lref {t} : IsFunction t → IsFunction (.lref t)
  | rref {t} : IsFunction t → IsFunction (.rref t)
  | const {t} : IsFunction t → IsFunction (.const t)

/-- `d` is the smallest number of arguments a call must pass: the position of the first default argument, or the number of parameters
if there is none or some parameter is a function. -/
def MinArity (params : List Param) (d : Nat) : Prop :=
  d ≤ params.length ∧
  ((∃ p ∈ params, IsFunction p.ty.canon) → d = params.length) ∧
  ((¬ ∃ p ∈ params, IsFunction p.ty.canon) →
    (∀ i, ∀ h : i < params.length, i < d → (params[i]).hasDefault = false) ∧
    (∀ h : d < params.length, (params[d]).hasDefault = true))

/-! ## Skip and bind entries -/

/-- A name is listed, up to spaces, among the entries of a section of the configuration. -/
def Listed (entries : List Str) (name : Str) : Prop := name.filter (· ≠ ' ') ∈ entries

instance (entries : List Str) (name : Str) : Decidable (Listed entries name) := by unfold Listed; infer_instance

/-! ## Template arguments -/

/-- Counts `<` up and `>` down; `none` if a `>` comes without a `<`. -/
def depth : Nat → Str → Option Nat
  | d, [] => some d
  | d, c :: cs => if c = '<' then depth (d + 1) cs else if c = '>' then (if d = 0 then none else depth (d - 1) cs) else depth d cs

/-- Angle brackets are balanced. -/
def Balanced (s : Str) : Prop := depth 0 s = some 0

/-- Name of a specialisation: nothing for an empty list of arguments, otherwise the arguments, separated by commas, in angle brackets. -/
def angle (args : List Str) : Str := if args = [] then [] else c!"<" ++ List.intercalate c!"," args ++ c!">"

end Binder.Spec

namespace Binder.Spec

open Cxx

/-! ## Return values -/

/-- The kinds of return type for which binder asks the user for an ownership policy. -/
inductive ReturnKind where
  | pointer | lvalueReference | rvalueReference
deriving DecidableEq

/-- The kind of a return type; typedefs and `const` do not matter. -/
def returnKind : Ty → Option ReturnKind
  | .ptr _ => some .pointer
  | .lref _ => some .lvalueReference
  | .rref _ => some .rvalueReference
  | .const t => returnKind t
  | .sugar _ t => returnKind t
  | _ => none

/-- The configured policy. Functions that are not members count as static. -/
def policyFor (c : Config) (isMember : Bool) : Option ReturnKind → Option Str
  | none => none
  | some .pointer => some (if isMember then c.memberPointerPolicy else c.staticPointerPolicy)
  | some .lvalueReference => some (if isMember then c.memberLvaluePolicy else c.staticLvaluePolicy)
  | some .rvalueReference => some (if isMember then c.memberRvaluePolicy else c.staticRvaluePolicy)

/-! ## Enumerations -/

/-- The values of a pybind11 enumeration, each on its own line. -/
def enumValues (es : List (Str × Str)) : Str :=
  (es.map fun e => c!"\n\t\t.value(\"" ++ e.1 ++ c!"\", " ++ e.2 ++ c!")").flatten

end Binder.Spec

namespace Binder.Spec

open Cxx

/-! ## Precedence of requests -/

/-- The first rule of a list whose condition holds decides; `none` if no rule applies. -/
inductive FirstMatch : List (Prop × Bool) → Option Bool → Prop where
  | none : FirstMatch [] none
  | hit {p b rest} : p → FirstMatch ((p, b) :: rest) (some b)
  | miss {p b rest r} : ¬ p → FirstMatch rest r → FirstMatch ((p, b) :: rest) r

/-- A type that is a class, possibly under another name or `const`. -/
inductive Named : Ty → Nat → Prop where
  | record {i} : Named (.record i) i
  | const {t i} : Named t i → Named (.const t) i
  | sugar {k t i} : Named t i → Named (.sugar k t) i

/-- A type that leads to a class through pointers and references written out in it. -/
inductive Reaches : Ty → Nat → Prop where
  | named {t i} : Named t i → Reaches t i
  | const {t i} : Reaches t i → Reaches (.const t) i
  | ptr {t i} : Reaches t i → Reaches (.ptr t) i
  | lref {t i} : Reaches t i → Reaches (.lref t) i
  | rref {t i} : Reaches t i → Reaches (.rref t) i

/-- The types a function mentions: return type, parameter types and, for a template, its type arguments. -/
def UsesType (F : Func) (t : Ty) : Prop :=
  t = F.ret ∨ (∃ p ∈ F.params, t = p.ty) ∨
  (F.templated ≠ .nonTemplate ∧ ∃ as, F.targs = some as ∧ ∃ a ∈ as, a.kind = .type t)

/-- The types among the template arguments of a class. -/
def TypeArg (C : Record) (t : Ty) : Prop := ∃ as, C.targs = some as ∧ ∃ a ∈ as, a.kind = .type t

/-- The member `x` of a pack printed as `<x>`, or the argument itself. -/
def unpacked (a : Str) : Str := if a.head? = some '<' ∧ a.getLast? = some '>' then a.tail.dropLast else a

end Binder.Spec
