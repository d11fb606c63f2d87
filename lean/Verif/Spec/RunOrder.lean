import Verif.Spec.Run

/-!
# Specification: the same program in another order
-/

namespace Binder.Spec

/-- The same declarations, which clang comes to in another order, and perhaps another number of times. -/
structure Reordered (U V : TransUnit) : Prop where
  env : V.env = U.env
  inSystem : V.inSystem = U.inSystem
  visits : ∀ v, v ∈ V.visits ↔ v ∈ U.visits

/-- Two declarations about which binder and the user have the same to say. -/
structure Alike (U : TransUnit) (v w : Visit) : Prop where
  inSystem : U.inSystem v = U.inSystem w
  namespace_ : namespaceOf U.E v = namespaceOf U.E w
  possible : CanBind U.E v ↔ CanBind U.E w
  skipped : skipQuery U.E v = skipQuery U.E w
  asked : bindQuery U.E v = bindQuery U.E w
  converted : Converted U.E v ↔ Converted U.E w
  typeName : typeNameOf U.E v = typeNameOf U.E w
  requests : ∀ t, t ∈ requestsOf U.E v ↔ t ∈ requestsOf U.E w

/-- Declarations of the same name declare the same thing, and a type name belongs to one name: what C++ demands. -/
structure Consistent (U : TransUnit) : Prop where
  redeclared : ∀ v ∈ U.visits, ∀ w ∈ U.visits, Standalone U.E v → Standalone U.E w → identOf U.E v = identOf U.E w → Alike U v w
  types : ∀ v ∈ U.visits, ∀ w ∈ U.visits, Standalone U.E v → Standalone U.E w → typeNameOf U.E v = typeNameOf U.E w →
    typeNameOf U.E v ≠ none → identOf U.E v = identOf U.E w

end Binder.Spec
