import Verif.Props.Run

/-!
# C63 for whole translation units
-/

namespace Binder

open Cxx Spec

theorem mem_insertions (U : TransUnit) (F : Func) : F ∈ U.E.insertions ↔
    Visit.fn F ∈ U.visits ∧ F.method = none ∧ F.isOperator = true ∧ F.name = c!"operator<<" := by
  have hb : F.method = none → F.isOperator = true → functionBindable U.env F = false := by
    intro h1 h2
    unfold functionBindable
    simp [h1, h2]
  simp only [TransUnit.E, List.mem_filterMap]
  constructor
  · rintro ⟨v, hv, h⟩
    cases v with
    | fn G =>
      simp only [visitInsertion] at h
      split at h
      · cases h
      · rename_i h1
        split at h
        · rename_i h2
          cases h
          simp only [Bool.or_eq_true, not_or, Option.isSome_iff_ne_none, ne_eq, Decidable.not_not] at h1
          simp only [Bool.and_eq_true, beq_iff_eq] at h2
          exact ⟨hv, h1.1, h2⟩
        · cases h
    | cls j => cases h
    | enm j => cases h
  · rintro ⟨hv, h1, h2, h3⟩
    refine ⟨.fn F, hv, ?_⟩
    simp [visitInsertion, h1, h2, h3, hb h1 h2]

/-- C63 for a translation unit: a class gets a `__str__` if a free function `std::ostream & operator<<(std::ostream &, const Q &)` is
declared anywhere in the unit, before or after the class, unless the user asked for none; the operator used is declared in the unit. -/
theorem C63_unit (U : TransUnit) (i : Nat) :
    (∀ F, Visit.fn F ∈ U.visits → F.isOperator = true → F.name = c!"operator<<" → PrintsClass U.E F (U.E.cls i) → ¬ StrSkipped U.E i →
      ∃ G, Item.repr G ∈ classItems U.E i) ∧
    (U.E.Wellfounded → ∀ G, Item.repr G ∈ classItems U.E i →
      Visit.fn G ∈ U.visits ∧ G.method = none ∧ G.isOperator = true ∧ G.name = c!"operator<<" ∧ ¬ StrSkipped U.E i) := by
  constructor
  · intro F hv h1 h2 hp hs
    obtain ⟨G, -, h, -⟩ := C63_str U.E i F ((mem_insertions U F).2 ⟨hv, hp.1, h1, h2⟩) hp hs
    exact ⟨G, h⟩
  · intro hw G h
    obtain ⟨h1, h2, -⟩ := C63_only_partial U.E hw i G h
    obtain ⟨a, b, c, d⟩ := (mem_insertions U G).1 h2
    exact ⟨a, b, c, d, h1⟩

/-- A class `A` with `std::ostream & operator<<(std::ostream &, const class A &)`, declared after the class. -/
def printedUnit : TransUnit :=
  { env := { exampleEnv with tyName := fun | .basic 1 => c!"std::ostream &" | .basic 2 => c!"const class A &" | t => exampleTyName t }
    visits := [.cls 0, .fn { exampleMethod c!"operator<<" true (.basic 1) [⟨c!"s", .basic 1, false⟩, ⟨c!"a", .basic 2, false⟩] with
      method := none, isOperator := true }]
    inSystem := fun _ => false
    depth := 10 }

/-- The hypotheses of `C63_unit` are met. -/
example : ∃ F, Visit.fn F ∈ printedUnit.visits ∧ F.isOperator = true ∧ F.name = c!"operator<<" ∧
    PrintsClass printedUnit.E F (printedUnit.E.cls 0) ∧ ¬ StrSkipped printedUnit.E 0 ∧ Item.repr F ∈ classItems printedUnit.E 0 :=
  ⟨_, List.mem_cons_of_mem _ List.mem_cons_self, rfl, by decide, ⟨rfl, by decide +kernel, by decide +kernel⟩,
    by rintro (h | h) <;> revert h <;> decide +kernel, by decide +kernel⟩

end Binder
