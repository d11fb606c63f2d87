import Verif.Spec.Surface
import Verif.Spec.Config

/-!
# Specification: asking for more
-/

namespace Binder.Spec

open Cxx

/-- What a configuration asks to bind, and what it asks to leave out. -/
structure Wishes where
  bindNamespaces : List Str
  skipNamespaces : List Str
  bindClasses : List Str
  skipClasses : List Str
  bindFunctions : List Str
  skipFunctions : List Str
  bindEnums : List Str
  skipEnums : List Str
  skipFields : List Str

/-- The wishes in a configuration. -/
def wishesOf (c : Config) : Wishes :=
  ⟨c.namespacesToBind, c.namespacesToSkip, c.classesToBind, c.classesToSkip, c.functionsToBind, c.functionsToSkip, c.enumsToBind, c.enumsToSkip,
    c.fieldsToSkip⟩

/-- The same configuration with other wishes. -/
def withWishes (c : Config) (w : Wishes) : Config :=
  { c with namespacesToBind := w.bindNamespaces, namespacesToSkip := w.skipNamespaces, classesToBind := w.bindClasses,
           classesToSkip := w.skipClasses, functionsToBind := w.bindFunctions, functionsToSkip := w.skipFunctions,
           enumsToBind := w.bindEnums, enumsToSkip := w.skipEnums, fieldsToSkip := w.skipFields }

/-- `b` asks for at least what `a` asks for, and leaves out at most what `a` leaves out. The order of the wishes does not matter. -/
structure Wishes.Le (a b : Wishes) : Prop where
  bindNamespaces : a.bindNamespaces ⊆ b.bindNamespaces
  skipNamespaces : b.skipNamespaces ⊆ a.skipNamespaces
  bindClasses : a.bindClasses ⊆ b.bindClasses
  skipClasses : b.skipClasses ⊆ a.skipClasses
  bindFunctions : a.bindFunctions ⊆ b.bindFunctions
  skipFunctions : b.skipFunctions ⊆ a.skipFunctions
  bindEnums : a.bindEnums ⊆ b.bindEnums
  skipEnums : b.skipEnums ⊆ a.skipEnums
  skipFields : b.skipFields ⊆ a.skipFields

/-- The same program with other wishes. -/
def wishing (U : TransUnit) (w : Wishes) : TransUnit := { U with env := { U.env with cfg := withWishes U.env.cfg w } }

/-- A line of a configuration file that asks for something. -/
def AsksLine (l : Str) : Prop :=
  ∃ kind name, directive l = some ('+', kind, name) ∧ kind ∈ [c!"namespace", c!"class", c!"function", c!"enum"]

/-- A line of a configuration file that leaves something out. -/
def LeavesLine (l : Str) : Prop :=
  ∃ kind name, directive l = some ('-', kind, name) ∧ kind ∈ [c!"namespace", c!"class", c!"function", c!"enum", c!"field"]

/-- The lines `b` are those of `a` with lines that ask for something put in anywhere, and lines that leave something out taken away. -/
inductive Relaxed : List Str → List Str → Prop where
  | nil : Relaxed [] []
  | same {l a b} : Relaxed a b → Relaxed (l :: a) (l :: b)
  | added {l a b} : AsksLine l → Relaxed a b → Relaxed a (l :: b)
  | removed {l a b} : LeavesLine l → Relaxed a b → Relaxed (l :: a) b

end Binder.Spec
