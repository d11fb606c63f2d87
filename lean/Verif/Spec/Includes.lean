import Verif.Model.Includes
import Verif.Spec.Class
import Verif.Spec.Function

/-!
# Specification: which headers a declaration needs

From the model only the data type `Node` (a class, an enumeration or a function), the decisions whether a function can be bound and is
skipped (specified in `Spec.Function`), and the header of a single declaration (`includesForName`, see C66) are used.
-/

namespace Binder.Spec

open Cxx

/-- The type names the class or enumeration `d`, through pointers and references that are written out in it. -/
inductive Leads : Ty → Node → Prop where
  | cls {t i} : t.head = .record i → Leads t (.cls i)
  | enm {t i} : t.head = .enum i → Leads t (.enm i)
  | const {t d} : Leads t d → Leads (.const t) d
  | ptr {t d} : Leads t d → Leads (.ptr t) d
  | lref {t d} : Leads t d → Leads (.lref t) d
  | rref {t d} : Leads t d → Leads (.rref t) d

/-- The template argument `a` of the class is written as `k`. -/
def HasArg (C : Record) (k : ArgKind) : Prop := ∃ as, C.targs = some as ∧ ∃ a ∈ as, a.kind = k

/-- The depth rules: a declaration that is looked at on a level asks for others on their levels. A function asks for the types of its
signature on its own level; a class asks one level deeper for its template arguments, for the instances of its member templates and, on
the levels 0 and 1, for its methods. -/
inductive Asks (E : Env) : Node → Nat → Node → Nat → Prop where
  | signature {F t d l} : UsesType F t → Leads t d → Asks E (.fn F) l d l
  | argument {i t d l} : HasArg (E.cls i) (.type t) → Leads t.head d → Asks E (.cls i) l d (l + 1)
  | value {i t d l} : HasArg (E.cls i) (.integral t) → Leads t d → Asks E (.cls i) l d (l + 1)
  | template {i l specs m} : Member.funcTemplate specs ∈ (E.cls i).members → m ∈ specs → m.method.isSome = true → m.access = .pub →
      functionBindable E m = true → skipFunction E m = .ok false → m.isCtor = false → m.isDtor = false → Asks E (.cls i) l (.fn m) (l + 1)
  | method {i l m} : l < 2 → Member.method m ∈ (E.cls i).members → m.access = .pub → functionBindable E m = true → m.isDtor = false →
      Asks E (.cls i) l (.fn m) (l + 1)

/-- All that is asked for, beginning with the declarations `roots`. -/
inductive Asked (E : Env) (roots : Node → Nat → Prop) : Node → Nat → Prop where
  | root {d l} : roots d l → Asked E roots d l
  | step {d l d' l'} : Asked E roots d l → Asks E d l d' l' → Asked E roots d' l'

/-- The include lines a declaration brings itself: its own header, the headers of the declarations and templates among its template
arguments, and the header of the definition of an enumeration. -/
inductive Brings (E : Env) : Node → Str → Prop where
  | cls {i x} : x ∈ includesForName E (includeNameOfClass E (E.cls i)) (E.cls i).incl → Brings E (.cls i) x
  | template {i k incl x} : HasArg (E.cls i) (.template k incl) → x ∈ includesForName E k incl → Brings E (.cls i) x
  | declaration {i t k incl x} : HasArg (E.cls i) (.declaration t k incl) → x ∈ includesForName E k incl → Brings E (.cls i) x
  | fn {F x} : x ∈ includesForName E (includeNameOfFunc E F) F.incl → Brings E (.fn F) x
  | enm {i x} : x ∈ includesForName E (includeNameOfEnum (E.enumD i)) (E.enumD i).incl → Brings E (.enm i) x
  | enumDefinition {i incl x} : (E.enumD i).definitionIncl = some incl → x ∈ includesForName E (includeNameOfEnum (E.enumD i)) incl →
      Brings E (.enm i) x

/-- The class `j` is `i`, or a public nested class of it, at any depth, that is defined where it is declared. -/
inductive InnerOf (E : Env) : Nat → Nat → Prop where
  | refl {i} : InnerOf E i i
  | inner {i k j} : k ∈ E.nestedClasses (E.cls i) → (E.cls k).isThisDefinition = true → InnerOf E k j → InnerOf E i j

/-- The function `f` is bound as a member function or constructor of class `j`. -/
def BoundMember (E : Env) (j : Nat) (f : Func) : Prop :=
  (∃ parent lam, Item.method f parent lam ∈ classItems E j) ∨
  ∃ x ∈ ctorItems E j, x = .defaultCtor f ∨ x = .copyCtor f ∨ x = .ctor f

/-- The header named in an `#include` directive with angle brackets, given the source text behind the word `include`. -/
def AngleHeader (source header : Str) : Prop := ∃ rest, '>' ∉ header ∧ source = c!"<" ++ header ++ c!">" ++ rest

end Binder.Spec
