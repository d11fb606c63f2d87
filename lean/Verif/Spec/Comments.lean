import Verif.Spec.Run

/-!
# Specification: the options for comments, and text apart from comments
-/

namespace Binder.Spec

open Cxx

/-- Values of the options `--annotate-includes`, `--annotate-functions` and `--skip-line-number`. -/
structure CommentOptions where
  annotateIncludes : Bool
  annotateFunctions : Bool
  skipLineNumber : Bool

/-- The same program and configuration with other values of these options. -/
def withComments (E : Env) (k : CommentOptions) : Env :=
  { E with opts := { E.opts with annotateIncludes := k.annotateIncludes, annotateFunctions := k.annotateFunctions, skipLineNumber := k.skipLineNumber } }

/-- The same translation unit with other values of these options. -/
def commented (U : TransUnit) (k : CommentOptions) : TransUnit := { U with env := withComments U.env k }

/-! ## Names in comments

No name and no type of a C++ program has a line end in it; neither have the texts clang prints for them, nor the names of headers. -/

/-- The texts of a function that stand in comments are on one line. -/
structure UnbrokenFunc (F : Func) : Prop where
  qname : '\n' ∉ F.qname
  incl : '\n' ∉ F.incl
  line : '\n' ∉ F.line
  targs : ∀ as, F.targs = some as → ∀ a ∈ as, '\n' ∉ a.text

/-- A member of a class. -/
def UnbrokenMember : Member → Prop
  | .using _ targets => ∀ F, Target.method F ∈ targets → UnbrokenFunc F
  | .funcTemplate specs => ∀ F ∈ specs, UnbrokenFunc F
  | .method F => UnbrokenFunc F
  | _ => True

/-- A class. -/
structure UnbrokenRecord (C : Record) : Prop where
  qname : '\n' ∉ C.qname
  incl : '\n' ∉ C.incl
  line : '\n' ∉ C.line
  targs : ∀ as, C.targs = some as → ∀ a ∈ as, '\n' ∉ a.text
  members : ∀ m ∈ C.members, UnbrokenMember m

/-- An enumeration. -/
structure UnbrokenEnum (e : EnumD) : Prop where
  qname : '\n' ∉ e.qname
  incl : '\n' ∉ e.incl
  line : '\n' ∉ e.line

/-- A program whose names and types are on one line each. -/
structure UnbrokenProgram (E : Env) : Prop where
  types : ∀ t, '\n' ∉ E.tyName t
  simplify : ∀ s, '\n' ∉ s → '\n' ∉ E.simplify s
  records : ∀ i, UnbrokenRecord (E.cls i)
  enums : ∀ i, UnbrokenEnum (E.enumD i)

/-! ## Text without comments -/

/-- The lines of a text. -/
def textLines : Str → List Str
  | [] => [[]]
  | c :: s =>
    if c = '\n' then [] :: textLines s
    else match textLines s with
      | [] => [[c]]
      | l :: ls => (c :: l) :: ls

/-- Inside or outside of a literal. -/
inductive Quote where
  | none
  | inside (q : Char)
  | escape (q : Char)

/-- The part of a line before a comment: up to the first `//` that is not part of a string or character literal. -/
def beforeComment : Quote → Str → Str
  | _, [] => []
  | .none, c :: s =>
    if c = '/' ∧ s.head? = some '/' then []
    else c :: beforeComment (if c = '"' ∨ c = '\'' then .inside c else .none) s
  | .inside q, c :: s => c :: beforeComment (if c = q then .none else if c = '\\' then .escape q else .inside q) s
  | .escape q, c :: s => c :: beforeComment (.inside q) s

/-- A text without the blanks and tabs at its end. -/
def trimEnd : Str → Str
  | [] => []
  | c :: s => if (c = ' ' ∨ c = '\t') ∧ trimEnd s = [] then [] else c :: trimEnd s

/-- The code on a line. -/
def lineCode (l : Str) : Str := trimEnd (beforeComment .none l)

/-- What a compiler sees of a text: its lines without comments, lines that have nothing else left out. -/
def codeLines (s : Str) : List Str := ((textLines s).map lineCode).filter (· ≠ [])

/-- An include line without a comment that follows a blank. -/
def noteless : Str → Str
  | [] => []
  | c :: s => if c = ' ' ∧ s.take 2 = c!"//" then [] else c :: noteless s

end Binder.Spec
