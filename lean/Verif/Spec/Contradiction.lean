import Verif.Spec.Run
import Verif.Spec.Function
import Verif.Spec.Config

/-!
# Specification: contradictory wishes
-/

namespace Binder.Spec

open Cxx

/-- No namespace is asked for and left out in the same words. -/
def Agreeing (c : Config) : Prop := ∀ e ∈ c.namespacesToBind, e ≠ [] → e ∉ c.namespacesToSkip

/-- The namespace is asked for and left out, and no longer entry decides. -/
def Torn (c : Config) (ns : Str) : Prop := Conflict c.namespacesToBind c.namespacesToSkip ns

/-- No entry is about the class, with or without its template arguments. -/
def ClassUnlisted (E : Env) (i : Nat) : Prop :=
  ∀ name, name = classQualifiedName E (E.cls i) ∨ name = stdName E (E.cls i).qname →
    ¬ Listed E.cfg.classesToSkip name ∧ ¬ Listed E.cfg.classesToBind name

/-- It cannot be said whether the class is left out: nothing is said about it, and its namespace, or that of a template argument, is asked
for and left out. -/
inductive UnclearClass (E : Env) : Nat → Prop where
  | own {i} : ClassUnlisted E i → Torn E.cfg (nsOf E (E.cls i).qname (E.cls i).name) → UnclearClass E i
  | arg {i j t} : ClassUnlisted E i → TypeArg (E.cls i) t → Reaches t j → UnclearClass E j → UnclearClass E i

/-- The same for a function: its namespace, or a class among its types. -/
def UnclearFunction (E : Env) (F : Func) : Prop :=
  (∀ name, name = functionQualifiedName E F true ∨ name = stdName E F.qname →
    ¬ Listed E.cfg.functionsToSkip name ∧ ¬ Listed E.cfg.functionsToBind name) ∧
  (Torn E.cfg (nsOf E F.qname F.name) ∨ ∃ t, UsesType F t ∧ ∃ j, Reaches t j ∧ UnclearClass E j)

/-- The same for an enumeration. -/
def UnclearEnum (E : Env) (e : EnumD) : Prop :=
  stdName E e.qname ∉ E.cfg.enumsToSkip ∧ stdName E e.qname ∉ E.cfg.enumsToBind ∧ Torn E.cfg (nsOf E e.qname e.name)

/-- The same for any declaration. -/
def Unclear (E : Env) : Visit → Prop
  | .fn F => UnclearFunction E F
  | .cls i => UnclearClass E i
  | .enm i => UnclearEnum E (E.enumD i)

/-- The source `name` below `pre` cannot be written: a file is where a directory is needed, or a directory where the file should be. -/
def Blocked (fs : FS) (pre name : Str) : Prop :=
  (∃ d rest, pre ++ c!"/" ++ name = d ++ c!"/" ++ rest ∧ (fs.files d).isSome = true) ∨ fs.dirs (pre ++ c!"/" ++ name) = true

/-- The names of the sources that a run can write below the output directory: the root module, and if there are others, numbered ones or
ones named after headers, without dots. -/
def SourceName (o : Opts) (name : Str) : Prop :=
  name = o.root ++ c!".cpp" ∨
  (o.single = false ∧ o.flat = true ∧ ∃ n : Nat, name = o.root ++ c!"_" ++ natStr n ++ c!".cpp") ∨
  (o.single = false ∧ o.flat = false ∧ ∃ stem, '.' ∉ stem ∧ name = stem ++ c!".cpp")

/-- All sources of a run can be written: an output directory is given and exists, and nothing is in the way. -/
def HasRoom (fs : FS) (o : Opts) : Prop :=
  o.pre ≠ [] ∧ fs.dirs o.pre = true ∧ ∀ name, SourceName o name → ¬ Blocked fs o.pre name

end Binder.Spec
