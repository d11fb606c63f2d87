import Verif.Lemmas.Spellable
import Verif.Model.Class
import Verif.Spec.Comments

/-!
# Texts without line ends
-/

namespace Binder

open Cxx Spec

/-- A text without line ends. -/
abbrev Flat (s : Str) : Prop := '\n' ∉ s

theorem Flat.append {s t : Str} (hs : Flat s) (ht : Flat t) : Flat (s ++ t) := by simp [Flat, hs, ht]

theorem Flat.substr {s : Str} (h : Flat s) (a b : Nat) : Flat (Str.substr s a b) := fun hc => h (List.mem_of_mem_drop (List.mem_of_mem_take hc))

theorem Flat.fixBool {s : Str} (h : Flat s) : Flat (fixBooleanTypes s) := fun hc =>
  (chars_fixBoolGo s.length s none (Nat.le_refl _) hc).elim h (by decide)

theorem Flat.nameMap {s : Str} (h : Flat s) : Flat (applyNameMap s) := by
  have key : ∀ p ∈ Binder.nameMap, Flat p.2 := by decide +kernel
  unfold applyNameMap
  generalize Binder.nameMap = l at key
  induction l generalizing s with
  | nil => exact h
  | cons p l ih =>
    rw [List.foldl_cons]
    exact ih (fun hc => (mem_replaceGo hc).elim h (key p (by simp))) fun q hq => key q (by simp [hq])

theorem Flat.commaSep {xs : List Str} (h : ∀ x ∈ xs, Flat x) : Flat (commaSep xs) := by
  induction xs with
  | nil => exact List.not_mem_nil
  | cons x xs ih =>
    cases xs with
    | nil => exact h x (by simp)
    | cons y ys => exact ((h x (by simp)).append (by decide)).append (ih fun z hz => h z (by simp [hz]))

theorem flat_folded {α : Type} {f : α → Str} {as : List α} {s : Str} (hs : Flat s) (h : ∀ a ∈ as, Flat (f a)) :
    Flat (as.foldl (fun t a => t ++ f a) s) := by
  induction as generalizing s with
  | nil => exact hs
  | cons a as ih => exact ih (hs.append (h a (by simp))) fun b hb => h b (by simp [hb])

theorem Flat.dropLast {s : Str} (h : Flat s) : Flat s.dropLast := fun hc => h (List.dropLast_subset _ hc)

theorem flat_classArg {a : Str} (h : Flat a) : Flat (classArgText a) := by
  unfold classArgText
  dsimp only
  split <;> split
  · exact (h.substr _ _).append (by decide)
  · exact List.not_mem_nil
  · exact h.append (by decide)
  · exact List.not_mem_nil

theorem flat_classTemplate {C : Record} (h : UnbrokenRecord C) : Flat (classTemplateText C) := by
  unfold classTemplateText
  refine Flat.fixBool ?_
  split
  · rename_i as e
    exact (flat_folded (by decide) fun a ha => flat_classArg (h.targs as e a ha)).dropLast.append (by decide)
  · exact List.not_mem_nil

section
variable {E : Env}

theorem Flat.stdName (H : UnbrokenProgram E) {s : Str} (h : Flat s) : Flat (stdName E s) := by
  unfold Binder.stdName standardName
  refine Flat.fixBool ?_
  split
  · exact Flat.append (by decide) (H.simplify _ fun hc => h.nameMap (List.mem_of_mem_drop hc))
  · exact h.nameMap

theorem flat_stdTy (H : UnbrokenProgram E) (t : Ty) : Flat (stdTy E t) := by
  unfold stdTy
  split
  · exact H.types t
  · exact Flat.stdName H (H.types _)

theorem flat_arguments (H : UnbrokenProgram E) (F : Func) : Flat (functionArguments E F) := by
  refine Flat.fixBool (Flat.commaSep ?_)
  intro x hx
  obtain ⟨p, _, rfl⟩ := List.mem_map.1 hx
  exact flat_stdTy H _

theorem flat_functionArg {a : TArg} (h : Flat a.text) : Flat (functionArgText a) := by
  unfold functionArgText
  split
  · split
    · exact List.not_mem_nil
    · refine Flat.append ?_ (by decide)
      split
      · exact h.substr _ _
      · exact h
  · exact h.append (by decide)

theorem flat_functionTemplate (H : UnbrokenProgram E) {F : Func} (h : UnbrokenFunc F) : Flat (functionTemplateText E F) := by
  unfold functionTemplateText
  refine Flat.stdName H ?_
  split
  · split
    · rename_i as e
      refine Flat.fixBool ?_
      split
      · exact List.not_mem_nil
      · exact (flat_folded (by decide) fun a ha => flat_functionArg (h.targs as e a ha)).dropLast.append (by decide)
    · exact List.not_mem_nil
  · exact List.not_mem_nil

theorem flat_functionQualified (H : UnbrokenProgram E) {F : Func} (h : UnbrokenFunc F) (b : Bool) : Flat (functionQualifiedName E F b) := by
  unfold functionQualifiedName
  refine Flat.fixBool ?_
  refine ((((Flat.append ?_ (Flat.stdName H (Flat.append h.qname (flat_functionTemplate H h)))).append (by decide)).append (flat_arguments H F)).append
    (by decide)).append ?_
  · split
    · exact List.not_mem_nil
    · exact (flat_stdTy H _).append (by decide)
  · unfold maybeConst
    split
    · decide
    · exact List.not_mem_nil

theorem flat_classQualified (H : UnbrokenProgram E) (i : Nat) : Flat (classQualifiedName E (E.cls i)) :=
  Flat.stdName H (Flat.append (H.records i).qname (flat_classTemplate (H.records i)))

/-! ## The functions among the members -/

/-- The function of an item, if its comment names one. -/
def UnbrokenItem : Item → Prop
  | .defaultCtor t => UnbrokenFunc t
  | .copyCtor t => UnbrokenFunc t
  | .ctor t => UnbrokenFunc t
  | .method f _ _ => UnbrokenFunc f
  | _ => True

theorem unbroken_methods (H : UnbrokenProgram E) {i : Nat} {m : Func} (h : m ∈ (E.cls i).methods) : UnbrokenFunc m := by
  unfold Record.methods at h
  obtain ⟨x, hx, he⟩ := List.mem_filterMap.1 h
  have := (H.records i).members x hx
  cases x <;> simp at he
  subst he
  exact this

theorem unbroken_ctorItem {t : Func} (h : UnbrokenFunc t) : UnbrokenItem (ctorItem t) := by
  unfold ctorItem
  split
  · exact h
  · split <;> exact h

theorem unbroken_ctorItems (H : UnbrokenProgram E) {i : Nat} {x : Item} (hx : x ∈ ctorItems E i) : UnbrokenItem x := by
  unfold ctorItems at hx
  simp only at hx
  split at hx
  · simp only [List.mem_append] at hx
    rcases hx with (hx | hx) | hx
    · split at hx
      · simp at hx; subst hx; trivial
      · simp at hx
    · unfold ownCtors at hx
      obtain ⟨t, ht, rfl⟩ := List.mem_map.1 hx
      exact unbroken_ctorItem (unbroken_methods H (List.mem_filter.1 ht).1)
    · unfold inheritedCtors at hx
      obtain ⟨t, ht, rfl⟩ := List.mem_map.1 hx
      refine unbroken_ctorItem ?_
      have ht := (List.mem_filter.1 ht).1
      unfold usedCtors at ht
      obtain ⟨m, hm, ht⟩ := List.mem_flatMap.1 ht
      have hp := (H.records i).members m hm
      cases m with
      | «using» a targets =>
        simp only at ht
        split at ht
        · obtain ⟨tg, htg, he⟩ := List.mem_filterMap.1 ht
          cases tg <;> simp at he
          obtain ⟨_, rfl⟩ := he
          exact hp _ htg
        · simp at ht
      | _ => simp at ht
  · simp at hx

theorem unbroken_dataMembers {i : Nat} {x : Item} (hx : x ∈ dataMembers E i) : UnbrokenItem x := by
  unfold dataMembers at hx
  obtain ⟨f, hf, rfl⟩ := List.mem_map.1 hx
  trivial

theorem unbroken_memberFunctions (H : UnbrokenProgram E) {i : Nat} {x : Item} (hx : x ∈ memberFunctions E i) : UnbrokenItem x := by
  unfold memberFunctions at hx
  simp only [List.mem_append] at hx
  rcases hx with hx | hx
  · obtain ⟨m, hm, hx⟩ := List.mem_flatMap.1 hx
    have hp := (H.records i).members m hm
    cases m with
    | «using» a targets =>
      simp only [memberItems] at hx
      split at hx
      · obtain ⟨tg, htg, he⟩ := List.mem_filterMap.1 hx
        cases tg <;> simp at he
        obtain ⟨_, rfl⟩ := he
        exact hp _ htg
      · simp at hx
    | funcTemplate specs =>
      simp only [memberItems] at hx
      obtain ⟨f, hf, he⟩ := List.mem_filterMap.1 hx
      simp at he
      obtain ⟨_, rfl⟩ := he
      exact hp f hf
    | _ => simp [memberItems] at hx
  · obtain ⟨f, hf, rfl⟩ := List.mem_map.1 hx
    exact unbroken_methods H (List.mem_filter.1 hf).1

theorem unbroken_templateBases (H : UnbrokenProgram E) : ∀ (n i : Nat) (x : Item), x ∈ templateBasesF E n i → UnbrokenItem x := by
  intro n
  induction n with
  | zero => intro i x hx; simp [templateBasesF] at hx
  | succ n ih =>
    intro i x hx
    rw [templateBasesF] at hx
    split at hx
    · obtain ⟨b, _, hx⟩ := List.mem_flatMap.1 hx
      unfold templateBaseItems at hx
      split at hx
      · split at hx
        · split at hx
          · simp only [List.mem_append] at hx
            rcases hx with (hx | hx) | hx
            · exact unbroken_dataMembers hx
            · exact unbroken_memberFunctions H hx
            · exact ih _ x hx
          · simp at hx
        · simp at hx
      · simp at hx
    · simp at hx

theorem unbroken_classItems (H : UnbrokenProgram E) {i : Nat} {x : Item} (hx : x ∈ classItems E i) : UnbrokenItem x := by
  unfold classItems at hx
  simp only [List.mem_append] at hx
  rcases hx with (((((hx | hx) | hx) | hx) | hx) | hx) | hx
  · exact unbroken_ctorItems H hx
  · unfold enumItems at hx
    obtain ⟨m, _, he⟩ := List.mem_filterMap.1 hx
    cases m <;> simp at he
    obtain ⟨_, rfl⟩ := he
    trivial
  · exact unbroken_dataMembers hx
  · exact unbroken_memberFunctions H hx
  · exact unbroken_templateBases H _ i x hx
  · unfold reprItems at hx
    simp only at hx
    split at hx
    · simp at hx
    · split at hx
      · simp at hx; subst hx; trivial
      · simp at hx
  · unfold addOnItems at hx
    split at hx
    · simp at hx; subst hx; trivial
    · simp at hx

end

end Binder
