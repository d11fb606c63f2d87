import Verif.Model.EnumNames

/-!
# Specification: which qualified names denote a declaration
-/

namespace Binder.Spec

/-- `cs` are names of the contexts `ss`, the outermost one first, under which C++ finds what is declared in them. Namespaces, classes and scoped
enumerations have to be named, specialisations with their arguments. The members of `extern "C"` blocks, of unscoped enumerations and of
anonymous namespaces are members of the context around them, too, and such contexts cannot be named there, except that an
unscoped enumeration may be. -/
inductive LeadsInto : List Str → List Around → Prop where
  | here : LeadsInto [] []
  | «namespace» {n : Str} {cs : List Str} {ss : List Around} : n ≠ [] → LeadsInto cs ss → LeadsInto (n :: cs) (.namespace n :: ss)
  | anonymous {cs : List Str} {ss : List Around} : LeadsInto cs ss → LeadsInto cs (.namespace [] :: ss)
  | cls {n args : Str} {cs : List Str} {ss : List Around} : LeadsInto cs ss → LeadsInto ((n ++ args) :: cs) (.cls n args :: ss)
  | enumeration {n : Str} {isScoped : Bool} {cs : List Str} {ss : List Around} : LeadsInto cs ss → LeadsInto (n :: cs) (.enumeration n isScoped :: ss)
  | unscoped {n : Str} {cs : List Str} {ss : List Around} : LeadsInto cs ss → LeadsInto cs (.enumeration n false :: ss)
  | block {cs : List Str} {ss : List Around} : LeadsInto cs ss → LeadsInto cs (.block :: ss)

/-- Names with `::` between them. -/
def joined : List Str → Str
  | [] => []
  | [n] => n
  | n :: m :: ns => n ++ c!"::" ++ joined (m :: ns)

/-- The text is a qualified name of what is declared as `name` in the contexts, the innermost one first. Qualified names may begin with
`::`. -/
def NamesDeclared (text : Str) (contexts : List Around) (name : Str) : Prop :=
  ∃ cs, LeadsInto cs contexts.reverse ∧ (text = joined (cs ++ [name]) ∨ text = c!"::" ++ joined (cs ++ [name]))

/-- The context has a name that is written without template arguments. -/
def PlainlyNamed : Around → Prop
  | .namespace n => n ≠ []
  | .cls _ args => args = []
  | .enumeration _ _ => True
  | .block => False

end Binder.Spec
