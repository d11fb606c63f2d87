import Verif.Spec.Surface
import Verif.Spec.Class
import Verif.Spec.Strings

/-!
# Specification: names that a Python program can spell
-/

namespace Binder.Spec

open Cxx

/-- The keywords of Python 3. -/
def pythonKeywords : List Str :=
  [c!"False", c!"None", c!"True", c!"and", c!"as", c!"assert", c!"async", c!"await", c!"break", c!"class", c!"continue", c!"def", c!"del",
   c!"elif", c!"else", c!"except", c!"finally", c!"for", c!"from", c!"global", c!"if", c!"import", c!"in", c!"is", c!"lambda", c!"nonlocal",
   c!"not", c!"or", c!"pass", c!"raise", c!"return", c!"try", c!"while", c!"with", c!"yield"]

/-- `x.n` can be written in Python: `n` is an identifier and no keyword. -/
def PyWord (n : Str) : Prop := IsIdentifier n ∧ n ∉ pythonKeywords

/-- Characters in the names of types: those of identifiers, blanks, `<`, `>`, `,`, `:`, and `*` and `&`. -/
def TypeChar (c : Char) : Bool :=
  IdentChar c || c == ' ' || c == '<' || c == '>' || c == ',' || c == ':' || c == '*' || c == '&'

/-- The name of a C++ class: a word, followed by template arguments without characters such as `-`, `(`, `[` or a quotation mark. -/
structure OrdinaryClassName (C : Record) : Prop where
  name : PyWord C.name
  null : ¬ c!"nullptr_t" <:+: C.name
  args : ∀ as, C.targs = some as → ∀ a ∈ as, ∀ c ∈ a.text, TypeChar c = true

/-- Classes whose members get Python names: bound classes, their member classes, and bases, whose members may be bound with those of a class. -/
inductive Contributes (U : TransUnit) : Nat → Prop
  | bound {i : Nat} : Reached U (.cls i) → Contributes U i
  | member {i j : Nat} : Contributes U i → j ∈ nestedBound U.E (U.E.cls i) → Contributes U j
  | base {i j : Nat} {b : Base} : Contributes U i → b ∈ (U.E.cls i).bases → b.record = some j → Contributes U j

/-- The prefix that the configuration asks for. -/
def staticPrefix (E : Env) (m : Func) : Str := if m.isStatic then E.cfg.prefixForStaticMemberFunctions else []

/-- The names in the C++ program are words of Python as well. -/
structure OrdinaryNames (U : TransUnit) : Prop where
  /-- Functions outside of classes. -/
  functions : ∀ F, Reached U (.fn F) → PyWord F.name
  /-- Enumerations, and their enumerators. -/
  enums : ∀ e, Reached U (.enm e) → PyWord (U.E.enumD e).name ∧ ∀ x ∈ (U.E.enumD e).enumerators, PyWord x.1
  classes : ∀ i, Contributes U i → (U.E.cls i).isAnonymous = false → OrdinaryClassName (U.E.cls i)
  fields : ∀ i, Contributes U i → ∀ f, PublicField (U.E.cls i) f ∨ MadePublic (U.E.cls i) (.field f) → PyWord f.name
  /-- Member functions, without constructors, destructors, conversions and operators. -/
  methods : ∀ i, Contributes U i → ∀ m, PublicMethod (U.E.cls i) m ∨ MadePublic (U.E.cls i) (.method m) → m.isCtor = false → m.isDtor = false →
    m.isConversion = false → m.isOperator = false → PyWord (staticPrefix U.E m ++ m.name)
  /-- Operators have no prefix. -/
  operators : ∀ i, Contributes U i → ∀ m, PublicMethod (U.E.cls i) m ∨ MadePublic (U.E.cls i) (.method m) → m.isOperator = true → staticPrefix U.E m = []
  memberEnums : ∀ i, Contributes U i → ∀ e, Member.enum e ∈ (U.E.cls i).members → (U.E.enumD e).access = .pub → (U.E.enumD e).name ≠ [] →
    PyWord (U.E.enumD e).name ∧ ∀ x ∈ (U.E.enumD e).enumerators, PyWord x.1

end Binder.Spec
