import Verif.Model.Generate

/-!
# Specifications for the generated files
-/

namespace Binder.Spec

/-- The declaration a piece of code binds, if any. -/
def declOf : Piece → Option SortItem
  | .code b => some b
  | _ => none

/-- The declarations bound by a file, in order. -/
def declsOf (f : OutFile) : List SortItem := f.body.filterMap declOf

/-- What a run must emit: the bound declarations in order, except those of namespaces that have their own binder. -/
def expected (c : Config) (bs : List SortItem) : List SortItem :=
  bs.filter fun b => !b.code.isEmpty && (c.binderForNamespaces b.decl.ns).isNone

/-- All the code the bind functions run for namespace `ns`, in calling order. -/
def piecesFor (files : List OutFile) (ns : Str) : List Piece := (files.filter fun f => f.ns = ns).flatMap (·.body)

/-- The number of a trace statement. -/
def traceOf : Piece → Option Nat
  | .trace n _ => some n
  | _ => none

/-- The text of a trace statement. -/
def traceText : Piece → Option Str
  | .trace n id => some (Piece.text (.trace n id))
  | _ => none

/-- A single addition to a file: a namespace-level call, or one declaration with its trace statement. -/
def OneEntry (g : List Piece) : Prop :=
  (∃ f ns, g = [.nsCall f ns]) ∨ (∃ f ns, g = [.addOn f ns]) ∨ (∃ n id, g = [.trace n id]) ∨ (∃ b, g = [.code b]) ∨
  (∃ n b, g = [.trace n b.decl.ident, .code b])

/-- The namespace path with the given components. -/
def joinNs : List Str → Str
  | [] => []
  | [x] => x
  | x :: y :: zs => x ++ c!"::" ++ joinNs (y :: zs)

/-- Components of a C++ namespace: non-empty, no colons. -/
def IsComponent (x : Str) : Prop := x ≠ [] ∧ ':' ∉ x

/-- `n` is the namespace with components `xs` or one of its (non-global) ancestors. -/
def AncestorOf (xs : List Str) (n : Str) : Prop := ∃ k, 0 < k ∧ k ≤ xs.length ∧ n = joinNs (xs.take k)

/-! ## What happens when the generated module is imported -/

/-- The loop over `sub_modules` in the generated code (context.cpp:117-119). `created` are the keys of the C++ map `modules`.
`none`: the parent entry does not exist, so `modules[p.first]` is a null module and `def_submodule` crashes. -/
def createModules : List Str → List (Str × Str) → Option (List Str)
  | created, [] => some created
  | created, (p, q) :: rest =>
    if p ∈ created then createModules (created ++ [if p = [] then q else p ++ c!"::" ++ q]) rest else none

/-- The namespace whose module a piece of code looks up with `M("...")`, which throws if it does not exist (context.cpp:100-104). -/
def moduleUsed : Piece → Option Str
  | .nsCall _ ns => some ns
  | .addOn _ ns => some ns
  | .trace _ _ => none
  | .code b => some b.decl.ns

/-- Registration of classes in pybind11: `class_<T, ..., Base>` throws "referenced unknown base type" unless every listed base,
builtin or not, is registered. The listed bases are those `bind` recorded as dependencies (class.cpp:965-969).
`none` is the exception. -/
def registerClasses : List Rec → List SortItem → Option (List Rec)
  | reg, [] => some reg
  | reg, b :: bs =>
    if ∀ c ∈ b.deps, c ∈ reg then
      registerClasses (match b.decl.record with | some C => reg ++ [C] | none => reg) bs
    else none

end Binder.Spec
