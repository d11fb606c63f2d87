import Verif.Spec.Import

/-!
# Specification: what does not depend on the form of the output
-/

namespace Binder.Spec

open Cxx

/-- Not a trace. -/
def Stmt.works : Stmt → Bool
  | .traces _ _ => false
  | _ => true

/-- The statements of all sources in the order in which the root module runs them (C69, `CallsAll`), without traces. -/
def worked (srcs : List Source) : List Stmt := (srcs.flatMap Source.stmts).filter Stmt.works

end Binder.Spec
