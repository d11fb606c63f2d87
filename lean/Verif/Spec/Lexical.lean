import Verif.Model.Run

/-!
# Specification: C++ text that a compiler can take apart

A reader of C++ source for what matters to the generated files: string and character literals, comments, preprocessor lines and brackets.
It refuses a text with a literal that is not closed on its line, or with brackets that do not match.
-/

namespace Binder.Spec

open Cxx

/-- Where the reader is. -/
inductive LexMode where
  /-- outside of literals and comments -/
  | code
  /-- after a `/` -/
  | slash
  /-- in a comment that begins with `//`, or in a preprocessor line -/
  | line
  /-- the same, after a backslash -/
  | lineEscape
  /-- in a string literal -/
  | str
  /-- the same, after a backslash -/
  | strEscape
  /-- in a character literal -/
  | chr
  /-- the same, after a backslash -/
  | chrEscape
deriving DecidableEq, Repr

/-- One character outside of literals and comments; `open_` are the brackets that must follow, the next one first. -/
def lexCode (open_ : Str) (c : Char) : Option (LexMode × Str) :=
  if c = '"' then some (.str, open_)
  else if c = '\'' then some (.chr, open_)
  else if c = '/' then some (.slash, open_)
  else if c = '#' then some (.line, open_)
  else if c = '\\' then none
  else if c = '(' then some (.code, ')' :: open_)
  else if c = '[' then some (.code, ']' :: open_)
  else if c = '{' then some (.code, '}' :: open_)
  else if c = ')' ∨ c = ']' ∨ c = '}' then
    match open_ with
    | [] => none
    | o :: os => if c = o then some (.code, os) else none
  else some (.code, open_)

/-- One character. Comments of the form `/* ... */` are not understood: the generated text has none. -/
def lexStep (m : LexMode) (open_ : Str) (c : Char) : Option (LexMode × Str) :=
  match m with
  | .code => lexCode open_ c
  | .slash => if c = '/' then some (.line, open_) else if c = '*' then none else lexCode open_ c
  | .line => if c = '\n' then some (.code, open_) else if c = '\\' then some (.lineEscape, open_) else some (.line, open_)
  | .lineEscape => if c = '\\' then some (.lineEscape, open_) else some (.line, open_)
  | .str => if c = '"' then some (.code, open_) else if c = '\\' then some (.strEscape, open_) else if c = '\n' then none else some (.str, open_)
  | .strEscape => if c = '\n' then none else some (.str, open_)
  | .chr => if c = '\'' then some (.code, open_) else if c = '\\' then some (.chrEscape, open_) else if c = '\n' then none else some (.chr, open_)
  | .chrEscape => if c = '\n' then none else some (.chr, open_)

/-- Read a text. -/
def lex (m : LexMode) (open_ : Str) : Str → Option (LexMode × Str)
  | [] => some (m, open_)
  | c :: s => match lexStep m open_ c with
    | none => none
    | some (m', o') => lex m' o' s

/-- A text that can be taken apart: every literal and every comment ends, every bracket is closed by its counterpart, nothing is closed
that was not opened. -/
def LexWellFormed (s : Str) : Prop := lex .code [] s = some (.code, [])

instance (s : Str) : Decidable (LexWellFormed s) := inferInstanceAs (Decidable (_ = _))

/-! ## What the declarations of a program must look like -/

/-- The characters that can begin a literal, a comment or a preprocessor line, and the end of a line. -/
def special : Str := ['"', '\'', '\\', '/', '#', '\n']

/-- A name or type as it can stand in C++ code: none of the special characters, brackets in pairs. -/
structure LexPlain (s : Str) : Prop where
  chars : ∀ c ∈ s, c ∉ special
  brackets : LexWellFormed s

/-- The name of a function: as `LexPlain`, but the division operators may be named. -/
def PlainName (s : Str) : Prop := ∃ p t, s = p ++ t ∧ LexPlain p ∧ (t = [] ∨ t = c!"/" ∨ t = c!"/=")

/-- A text on one line. -/
def OneLine (s : Str) : Prop := '\n' ∉ s ∧ '\\' ∉ s

instance (s : Str) : Decidable (OneLine s) := inferInstanceAs (Decidable (_ ∧ _))

/-- A template argument. A pack is printed in angle brackets (util.cpp:229-253). -/
structure PlainArg (a : TArg) : Prop where
  text : LexPlain a.text
  pack : ∀ n, a.kind = .pack n → ∃ t, a.text = c!"<" ++ t ++ c!">"
  template : ∀ key incl, a.kind = .template key incl → OneLine key ∧ OneLine incl
  declaration : ∀ t key incl, a.kind = .declaration t key incl → OneLine key ∧ OneLine incl

/-- A function. Its name must be plain before and after `standard_name`, which also gets it with the name of a class in front. -/
structure PlainFunc (E : Env) (F : Func) : Prop where
  name : PlainName F.name
  qname : PlainName F.qname
  standard : PlainName (stdName E F.qname)
  member : ∀ i, PlainName (stdName E (classQualifiedName E (E.cls i) ++ c!"::" ++ F.name))
  namespace_ : LexPlain (nsOf E F.qname F.name)
  incl : OneLine F.incl
  line : OneLine F.line
  params : ∀ p ∈ F.params, LexPlain p.name
  targs : ∀ as, F.targs = some as → ∀ a ∈ as, PlainArg a

/-- A field. -/
structure PlainField (f : Field) : Prop where
  name : LexPlain f.name

/-- A member of a class. -/
def PlainMember (E : Env) : Member → Prop
  | .field f => PlainField f
  | .using _ targets => (∀ f, Target.field f ∈ targets → PlainField f) ∧ ∀ F, Target.method F ∈ targets → PlainFunc E F
  | .funcTemplate specs => ∀ F ∈ specs, PlainFunc E F
  | .method F => PlainFunc E F
  | _ => True

/-- A class. Its name must be plain before and after `standard_name` and `simplify_std_class_name`. -/
structure PlainRecord (E : Env) (C : Record) : Prop where
  name : LexPlain C.name
  qname : LexPlain C.qname
  standard : LexPlain (classQualifiedName E C)
  short : LexPlain (className E C)
  namespace_ : LexPlain (nsOf E C.qname C.name)
  incl : OneLine C.incl
  line : OneLine C.line
  targs : ∀ as, C.targs = some as → ∀ a ∈ as, PlainArg a
  members : ∀ m ∈ C.members, PlainMember E m

/-- An enumeration. -/
structure PlainEnum (E : Env) (e : EnumD) : Prop where
  name : LexPlain e.name
  qname : LexPlain e.qname
  namespace_ : LexPlain (nsOf E e.qname e.name)
  incl : OneLine e.incl
  definitionIncl : ∀ i, e.definitionIncl = some i → OneLine i
  line : OneLine e.line
  enumerators : ∀ x ∈ e.enumerators, LexPlain x.1 ∧ LexPlain x.2

/-- The texts of the configuration that are copied into the generated files. -/
structure PlainConfig (c : Config) : Prop where
  staticPrefix : LexPlain c.prefixForStaticMemberFunctions
  policies : LexPlain c.memberPointerPolicy ∧ LexPlain c.memberLvaluePolicy ∧ LexPlain c.memberRvaluePolicy ∧ LexPlain c.staticPointerPolicy ∧
    LexPlain c.staticLvaluePolicy ∧ LexPlain c.staticRvaluePolicy
  callGuard : LexPlain c.defaultCallGuard
  holder : LexPlain c.holderType
  trampolines : ∀ s, LexPlain (customTrampolineFunction c s)
  binders : ∀ s b, c.binders s = some b → LexPlain b
  addOns : ∀ s b, c.addOnBinders s = some b → LexPlain b
  namespaceBinders : ∀ s b, c.binderForNamespaces s = some b → LexPlain b
  namespaceAddOns : ∀ s b, c.addOnBinderForNamespaces s = some b → LexPlain b
  pybind11 : OneLine c.pybind11IncludeFile
  includes : ∀ i ∈ c.includesToAdd, OneLine i
  classIncludes : ∀ s, ∀ i ∈ c.classIncludes s, OneLine i
  namespaceIncludes : ∀ s, ∀ i ∈ c.namespaceIncludes s, OneLine i

/-- A program whose names can stand in C++ code, before and after they are simplified (see `C77_balanced_false`, `C78_simplified_false`). The
function that simplifies names writes none of the special characters, as is so for `simplify_std_class_name`
(`C78_simplify_chars`). Comments are not restricted. -/
structure PlainProgram (E : Env) : Prop where
  types : ∀ t, LexPlain (E.tyName t) ∧ LexPlain (stdName E (E.tyName t))
  simplifyChars : ∀ s, ∀ c ∈ E.simplify s, c ∈ s ∨ c ∉ special
  records : ∀ i, PlainRecord E (E.cls i)
  enums : ∀ i, PlainEnum E (E.enumD i)
  insertions : ∀ F ∈ E.insertions, PlainFunc E F
  config : PlainConfig E.cfg

end Binder.Spec
