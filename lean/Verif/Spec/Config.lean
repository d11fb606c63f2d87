import Verif.Basic.Str

/-!
# Independent specification of the configuration file and of the namespace queries

Nothing in this file refers to the model of the program.
-/

namespace Binder.Spec

/-! ## Lines -/

/-- A line without one trailing carriage return. -/
def stripCR (l : Str) : Str := if l.getLast? = some '\r' then l.dropLast else l

/-- Lines without effect: empty ones (a lone carriage return counts as empty) and comments. -/
def Ignored (l : Str) : Prop := stripCR l = [] ∨ l.head? = some '#'

instance (l : Str) : Decidable (Ignored l) := by unfold Ignored; infer_instance

/-- `sign keyword argument`: the sign is the first character, the keyword ends at the first space. -/
def directive (l : Str) : Option (Char × Str × Str) :=
  match stripCR l with
  | [] => none
  | s :: rest =>
    if s = '+' ∨ s = '-' then
      match rest.dropWhile (· ≠ ' ') with
      | [] => none
      | _ :: arg => some (s, rest.takeWhile (· ≠ ' '), arg)
    else none

/-- A value with its spaces removed. -/
def noSpaces (s : Str) : Str := s.filter (· ≠ ' ')

/-- A value that consists of a word, a space or tab, and the rest of the line. -/
def twoWords (s : Str) : Option (Str × Str) :=
  match s.dropWhile (fun c => c ≠ ' ' ∧ c ≠ '\t') with
  | [] => none
  | _ :: v => some (s.takeWhile (fun c => c ≠ ' ' ∧ c ≠ '\t'), v)

/-- A string without its leading and trailing spaces and tabs. -/
def stripBlanks (s : Str) : Str :=
  ((s.dropWhile (fun c => c = ' ' ∨ c = '\t')).reverse.dropWhile (fun c => c = ' ' ∨ c = '\t')).reverse

/-- Keywords whose argument must be two words. -/
def pairKeywords : List Str :=
  [c!"include_for_class", c!"include_for_namespace", c!"binder", c!"add_on_binder", c!"binder_for_namespace",
   c!"add_on_binder_for_namespace", c!"trampoline_member_function_binder"]

/-- Keywords for which the sign `-` is an error. -/
def plusOnlyKeywords : List Str := [c!"include_for_class", c!"include_for_namespace"]

/-- All keywords. -/
def keywords : List Str := pairKeywords ++
  [c!"namespace", c!"class", c!"enum", c!"python_builtin", c!"function", c!"include", c!"buffer_protocol",
   c!"module_local_namespace", c!"field", c!"custom_shared", c!"smart_holder", c!"pybind11_include_file",
   c!"default_static_pointer_return_value_policy", c!"default_static_lvalue_reference_return_value_policy",
   c!"default_static_rvalue_reference_return_value_policy", c!"default_member_pointer_return_value_policy",
   c!"default_member_lvalue_reference_return_value_policy", c!"default_member_rvalue_reference_return_value_policy",
   c!"default_call_guard", c!"prefix_for_static_member_functions"]

/-- A line the documentation allows. -/
def WellFormed (l : Str) : Prop :=
  Ignored l ∨ ∃ s k a, directive l = some (s, k, a) ∧ k ∈ keywords ∧ (k ∈ plusOnlyKeywords → s = '+') ∧
    (k ∈ pairKeywords → s = '+' → twoWords a ≠ none)

/-- The arguments of the lines `s`&nbsp;`k`, in order. -/
def given (s : Char) (k : Str) (lines : List Str) : List Str :=
  lines.filterMap fun l => if Ignored l then none else
    match directive l with
    | some (s', k', a) => if s' = s ∧ k' = k then some a else none
    | none => none

/-- The arguments of the lines with keyword `k` and either sign, in order. -/
def givenEither (k : Str) (lines : List Str) : List Str :=
  lines.filterMap fun l => if Ignored l then none else
    match directive l with
    | some (_, k', a) => if k' = k then some a else none
    | none => none

/-- The value given last for `key` by the lines `+k key value`. -/
def lastFor (k key : Str) (lines : List Str) : Option Str :=
  (((given '+' k lines).filterMap twoWords).filter (fun p => p.1 = key)).getLast?.map (·.2)

/-- All values given for `key` by the lines `+k key value`, in order. -/
def allFor (k key : Str) (lines : List Str) : List Str :=
  (((given '+' k lines).filterMap twoWords).filter (fun p => p.1 = key)).map (·.2)

/-! ## Namespace queries -/

/-- `e` is an entry that matches `ns` and no matching entry is longer. -/
def Longest (entries : List Str) (ns e : Str) : Prop :=
  e ∈ entries ∧ e <+: ns ∧ ∀ x ∈ entries, x <+: ns → x.length ≤ e.length

/-- Some non-empty entry matches. -/
def Matched (entries : List Str) (ns : Str) : Prop := ∃ e ∈ entries, e ≠ [] ∧ e <+: ns

/-- The longest non-empty matching entry of `es` is longer than every matching entry of `others`. -/
def Beats (es others : List Str) (ns : Str) : Prop :=
  ∃ e, Longest es ns e ∧ e ≠ [] ∧ ∀ x ∈ others, x <+: ns → x.length < e.length

/-- The same non-empty entry is the longest match in both lists. -/
def Conflict (es others : List Str) (ns : Str) : Prop := ∃ e, e ≠ [] ∧ Longest es ns e ∧ Longest others ns e

/-- `ns` is the namespace `outer` or nested in it. -/
def Within (outer ns : Str) : Prop := ns = outer ∨ ∃ rest, ns = outer ++ c!"::" ++ rest

end Binder.Spec
