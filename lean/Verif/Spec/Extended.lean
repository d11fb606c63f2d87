import Verif.Spec.Surface
import Verif.Spec.RunOrder

/-!
# Specification: more declarations
-/

namespace Binder.Spec

/-- All declarations of `U`, and perhaps more: another header is included, anywhere. The declarations of `U` mean the same in both. -/
structure Extended (U V : TransUnit) : Prop where
  env : V.env = U.env
  inSystem : V.inSystem = U.inSystem
  visits : U.visits ⊆ V.visits

/-- No two declarations have the same name (one declaration can be visited twice). -/
def Once (U : TransUnit) : Prop :=
  ∀ v ∈ U.visits, ∀ w ∈ U.visits, Standalone U.E v → Standalone U.E w → identOf U.E v = identOf U.E w → v = w

/-- A type name belongs to one declaration. -/
def OnceTypes (U : TransUnit) : Prop :=
  ∀ v ∈ U.visits, ∀ w ∈ U.visits, Standalone U.E v → Standalone U.E w → typeNameOf U.E v = typeNameOf U.E w →
    typeNameOf U.E v ≠ none → identOf U.E v = identOf U.E w

end Binder.Spec
