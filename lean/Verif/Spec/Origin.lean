import Verif.Spec.Run
import Verif.Spec.Function

/-!
# Specification: where a binding says that it comes from
-/

namespace Binder.Spec

open Cxx

/-- How the comment before a binding calls the declaration: functions with the types of their parameters. -/
def described (E : Env) : Visit → Str
  | .fn F => F.qname ++ "(".toList ++ listText (F.params.map fun p => stdTy E p.ty) ++ ")".toList
  | .cls i => stdName E (E.cls i).qname
  | .enm i => stdName E (E.enumD i).qname

/-- The header in which the declaration is, in the form of an include. -/
def headerOf (E : Env) : Visit → Str
  | .fn F => F.incl
  | .cls i => (E.cls i).incl
  | .enm i => (E.enumD i).incl

/-- The number of the line in which it begins, as a text. -/
def lineOf (E : Env) : Visit → Str
  | .fn F => F.line
  | .cls i => (E.cls i).line
  | .enm i => (E.enumD i).line

/-- The comment: the number is left out if the user does not want any. -/
def originComment (E : Env) (v : Visit) (file : Str) : Str :=
  "// ".toList ++ described E v ++ " file:".toList ++ file ++ " line:".toList ++ (if E.opts.skipLineNumber = true then [] else lineOf E v) ++ "\n".toList

/-- What the option `--annotate-functions` is to add: the signature, the header and the line. -/
def annotation (E : Env) (signature : Str) (v : Visit) (file : Str) : Str :=
  "\t// function-signature: ".toList ++ signature ++ " file:".toList ++ file ++ " line:".toList ++
    (if E.opts.skipLineNumber = true then [] else lineOf E v) ++ "\n".toList

/-- The types of the parameters in parentheses. -/
def parameterTypes (E : Env) (F : Func) : Str := "(".toList ++ listText (F.params.map fun p => stdTy E p.ty) ++ ")".toList

/-- The signature: the type of the result, the name with the arguments of the template, the types of the parameters; `_Bool` is written `bool`. -/
def signature (E : Env) (F : Func) : Str :=
  fixBooleanTypes (stdTy E F.ret ++ " ".toList ++ stdName E (F.qname ++ functionTemplateText E F) ++ parameterTypes E F ++ maybeConst F)

/-- The signature of a constructor has no result. -/
def constructorSignature (E : Env) (F : Func) : Str :=
  fixBooleanTypes (stdName E (F.qname ++ functionTemplateText E F) ++ parameterTypes E F ++ maybeConst F)

end Binder.Spec
