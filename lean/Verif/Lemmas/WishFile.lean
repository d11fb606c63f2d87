import Verif.Spec.Wishes
import Verif.Lemmas.ConfigSame

/-! Wishes: configuration files. -/

namespace Binder

open Spec

/-- The configuration `d` is `c` with more wishes. -/
def Below (c d : Config) : Prop := (wishesOf c).Le (wishesOf d) ∧ d = withWishes c (wishesOf d)

theorem addList_subset {a b : List Str} (h : a ⊆ b) (x y : Bool) (tok k name : Str) : addList a x y tok k name ⊆ addList b x y tok k name := by
  unfold addList
  split
  · intro z hz
    rcases List.mem_append.1 hz with hz | hz
    · exact List.mem_append.2 (.inl (h hz))
    · exact List.mem_append.2 (.inr hz)
  · exact h

theorem below_field {c d : Config} (h : Below c d) (b : Bool) (tok name : Str) : Below (fieldEffect c b tok name) (fieldEffect d b tok name) := by
  obtain ⟨h1, h2⟩ := h
  refine ⟨⟨?_, ?_, ?_, ?_, ?_, ?_, ?_, ?_, ?_⟩, ?_⟩
  · exact addList_subset h1.bindNamespaces _ _ _ _ _
  · exact addList_subset h1.skipNamespaces _ _ _ _ _
  · exact addList_subset h1.bindClasses _ _ _ _ _
  · exact addList_subset h1.skipClasses _ _ _ _ _
  · exact addList_subset h1.bindFunctions _ _ _ _ _
  · exact addList_subset h1.skipFunctions _ _ _ _ _
  · exact addList_subset h1.bindEnums _ _ _ _ _
  · exact addList_subset h1.skipEnums _ _ _ _ _
  · exact addList_subset h1.skipFields _ _ _ _ _
  · rw [h2]; rfl

theorem below_line {c d : Config} (h : Below c d) (l : Str) : Below (lineEffect c l) (lineEffect d l) := by
  unfold lineEffect
  split
  · exact h
  · split
    · exact below_field h _ _ _
    · exact h

theorem Below.trans {a b c : Config} (h1 : Below a b) (h2 : Below b c) : Below a c := by
  obtain ⟨h1, e1⟩ := h1
  obtain ⟨h2, e2⟩ := h2
  refine ⟨⟨?_, ?_, ?_, ?_, ?_, ?_, ?_, ?_, ?_⟩, ?_⟩
  · exact h1.bindNamespaces.trans h2.bindNamespaces
  · exact h2.skipNamespaces.trans h1.skipNamespaces
  · exact h1.bindClasses.trans h2.bindClasses
  · exact h2.skipClasses.trans h1.skipClasses
  · exact h1.bindFunctions.trans h2.bindFunctions
  · exact h2.skipFunctions.trans h1.skipFunctions
  · exact h1.bindEnums.trans h2.bindEnums
  · exact h2.skipEnums.trans h1.skipEnums
  · exact h2.skipFields.trans h1.skipFields
  · rw [e2, e1]; rfl

theorem Below.refl (c : Config) : Below c c := ⟨⟨fun _ h => h, fun _ h => h, fun _ h => h, fun _ h => h, fun _ h => h, fun _ h => h, fun _ h => h, fun _ h => h, fun _ h => h⟩, rfl⟩

theorem addList_true (l : List Str) (x y : Bool) (tok k name : Str) : l ⊆ addList l x y tok k name := by
  unfold addList
  split
  · exact List.subset_append_left _ _
  · exact fun _ h => h

theorem addList_other (l : List Str) {x y : Bool} (tok k name : Str) (h : x ≠ y) : addList l x y tok k name ⊆ l := by
  unfold addList
  rw [if_neg]
  · exact fun _ h => h
  · rintro ⟨h1, h2⟩
    simp_all

theorem below_asks (c : Config) {kind name : Str} (h : kind ∈ [c!"namespace", c!"class", c!"function", c!"enum"]) :
    Below c (fieldEffect c true kind name) := by
  refine ⟨⟨addList_true _ _ _ _ _ _, ?_, addList_true _ _ _ _ _ _, ?_, addList_true _ _ _ _ _ _, ?_, addList_true _ _ _ _ _ _, ?_, ?_⟩, ?_⟩
  · exact addList_other (x := true) (y := false) _ kind c!"namespace" name (by decide)
  · exact addList_other (x := true) (y := false) _ kind c!"class" name (by decide)
  · exact addList_other (x := true) (y := false) _ kind c!"function" name (by decide)
  · exact addList_other (x := true) (y := false) _ kind c!"enum" name (by decide)
  · exact addList_other (x := true) (y := false) _ kind c!"field" name (by decide)
  · simp only [List.mem_cons, List.not_mem_nil, or_false] at h
    rcases h with rfl | rfl | rfl | rfl <;> rfl

theorem below_leaves (c : Config) {kind name : Str} (h : kind ∈ [c!"namespace", c!"class", c!"function", c!"enum", c!"field"]) :
    Below (fieldEffect c false kind name) c := by
  refine ⟨⟨?_, addList_true _ _ _ _ _ _, ?_, addList_true _ _ _ _ _ _, ?_, addList_true _ _ _ _ _ _, ?_, addList_true _ _ _ _ _ _, addList_true _ _ _ _ _ _⟩, ?_⟩
  · exact addList_other (x := false) (y := true) _ kind c!"namespace" name (by decide)
  · exact addList_other (x := false) (y := true) _ kind c!"class" name (by decide)
  · exact addList_other (x := false) (y := true) _ kind c!"function" name (by decide)
  · exact addList_other (x := false) (y := true) _ kind c!"enum" name (by decide)
  · simp only [List.mem_cons, List.not_mem_nil, or_false] at h
    rcases h with rfl | rfl | rfl | rfl | rfl <;> rfl

theorem not_ignored {l : Str} {s : Char} {k a : Str} (h : directive l = some (s, k, a)) : ¬ Ignored l := by
  have hs := directive_sign h
  unfold directive at h
  unfold Ignored
  cases e : stripCR l with
  | nil => rw [e] at h; cases h
  | cons x xs =>
    rw [e] at h
    rintro (h' | h')
    · cases h'
    · have hx : l.head? = some x := by
        unfold stripCR at e
        split at e
        · cases l with
          | nil => cases e
          | cons y ys =>
            cases ys with
            | nil => cases e
            | cons z zs => rw [List.dropLast_cons_cons] at e; injection e with e; rw [e]; rfl
        · rw [e]; rfl
      rw [hx] at h'
      injection h' with h'
      subst h'
      simp at h

theorem below_relaxed {a b : List Str} (h : Relaxed a b) {c d : Config} (hc : Below c d) : Below (a.foldl lineEffect c) (b.foldl lineEffect d) := by
  induction h generalizing c d with
  | nil => exact hc
  | same _ ih => exact ih (below_line hc _)
  | added hl _ ih =>
    obtain ⟨k, n, h1, h2⟩ := hl
    refine ih (hc.trans ?_)
    unfold lineEffect
    rw [if_neg (not_ignored h1), h1]
    exact below_asks d h2
  | removed hl _ ih =>
    obtain ⟨k, n, h1, h2⟩ := hl
    refine ih (Below.trans ?_ hc)
    unfold lineEffect
    rw [if_neg (not_ignored h1), h1]
    exact below_leaves c h2

end Binder
