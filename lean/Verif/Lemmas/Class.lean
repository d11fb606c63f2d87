import Verif.Lemmas.Trampoline
import Verif.Lemmas.Queries

/-! Facts about the members of a class binding. -/

namespace Binder

open Cxx Spec

variable (E : Env)

theorem answer_false {x : Except QueryError Bool} : answer x = false ↔ x = .ok false := by
  cases x with
  | error e => simp [answer]
  | ok b => simp [answer]

theorem answer_not {x : Except QueryError Bool} : (!answer x) = true ↔ x = .ok false := by
  rw [Bool.not_eq_true', answer_false]

theorem memberWanted_iff (m : Func) : memberWanted E m = true ↔
    functionBindable E m = true ∧ skipFunction E m = .ok false ∧ m.isCtor = false ∧ m.isDtor = false ∧ isConstOverload E m = false := by
  simp only [memberWanted, Bool.and_eq_true, Bool.not_eq_true', answer_false, and_assoc]

theorem mem_methods {C : Record} {f : Func} : f ∈ C.methods ↔ Member.method f ∈ C.members := by
  simp only [Record.methods, List.mem_filterMap]
  constructor
  · rintro ⟨m, hm, h⟩
    split at h
    · cases h; exact hm
    · cases h
  · intro h; exact ⟨_, h, rfl⟩

theorem access_isSome {f : Func} (h : f.access = .pub) : f.method.isSome = true := by
  unfold Func.access at h
  cases hm : f.method with
  | none => rw [hm] at h; cases h
  | some _ => rfl

/-- The functions bound as methods of class `i`, without the bases. -/
theorem mem_memberFunctions (i : Nat) (x : Item) : x ∈ memberFunctions E i ↔
    (∃ f, x = .method f (some i) true ∧ MadePublic (E.cls i) (.method f) ∧ f.method.isSome = true ∧ memberWanted E f = true) ∨
    (∃ f, x = .method f none false ∧ PublicMethod (E.cls i) f ∧ memberWanted E f = true) := by
  simp only [memberFunctions, List.mem_append, List.mem_flatMap, List.mem_map, List.mem_filter, Bool.and_eq_true, beq_iff_eq, mem_methods]
  constructor
  · rintro (⟨m, hm, hx⟩ | ⟨f, ⟨hf, ha, hw⟩, rfl⟩)
    · cases m with
      | «using» a ts =>
        simp only [memberItems] at hx
        split at hx
        · rename_i ha; subst ha
          obtain ⟨t, ht, h⟩ := List.mem_filterMap.1 hx
          split at h
          · split at h
            · rename_i hw
              simp only [Bool.and_eq_true] at hw
              simp only [Option.some.injEq] at h
              exact .inl ⟨_, h.symm, ⟨ts, hm, ht⟩, hw.1, hw.2⟩
            · cases h
          · cases h
        · cases hx
      | funcTemplate specs =>
        simp only [memberItems] at hx
        obtain ⟨f, hf, h⟩ := List.mem_filterMap.1 hx
        split at h
        · rename_i hw
          simp only [Bool.and_eq_true, beq_iff_eq] at hw
          simp only [Option.some.injEq] at h
          exact .inr ⟨f, h.symm, ⟨hw.2.1, .inr ⟨specs, hm, hf⟩⟩, hw.2.2⟩
        · cases h
      | _ => simp only [memberItems] at hx; cases hx
    · exact .inr ⟨f, rfl, ⟨ha, .inl hf⟩, hw⟩
  · rintro (⟨f, rfl, ⟨ts, hm, ht⟩, hs, hw⟩ | ⟨f, rfl, ⟨ha, hf | ⟨specs, hm, hf⟩⟩, hw⟩)
    · refine .inl ⟨_, hm, ?_⟩
      simp only [memberItems, if_true]
      exact List.mem_filterMap.2 ⟨_, ht, by simp [hs, hw]⟩
    · exact .inr ⟨f, ⟨hf, ha, hw⟩, rfl⟩
    · refine .inl ⟨_, hm, ?_⟩
      simp only [memberItems]
      exact List.mem_filterMap.2 ⟨f, hf, by simp [access_isSome ha, ha, hw]⟩

/-- The fields bound for class `i`, without the bases. -/
theorem mem_dataMembers (i : Nat) (x : Item) : x ∈ dataMembers E i ↔
    ∃ f, x = .field i f ∧ (PublicField (E.cls i) f ∨ MadePublic (E.cls i) (.field f)) ∧ fieldSkippingRequested E.cfg f.qname = false ∧
      fieldBindable E f = true := by
  simp only [dataMembers, List.mem_map, List.mem_append, usedFields, ownFields, List.mem_flatMap, List.mem_filterMap]
  constructor
  · rintro ⟨f, ⟨m, hm, h⟩ | ⟨m, hm, h⟩, rfl⟩
    · split at h
      · rename_i a ts
        split at h
        · rename_i ha; subst ha
          obtain ⟨t, ht, h⟩ := List.mem_filterMap.1 h
          split at h
          · split at h
            · rename_i hw
              simp only [Bool.and_eq_true, Bool.not_eq_true'] at hw
              cases h
              exact ⟨_, rfl, .inr ⟨ts, hm, ht⟩, hw⟩
            · cases h
          · cases h
        · cases h
      · cases h
    · split at h
      · split at h
        · rename_i hw
          simp only [Bool.and_eq_true, Bool.not_eq_true', beq_iff_eq] at hw
          cases h
          exact ⟨_, rfl, .inl ⟨hw.2.1, hm⟩, hw.1, hw.2.2⟩
        · cases h
      · cases h
  · rintro ⟨f, rfl, ⟨ha, hm⟩ | ⟨ts, hm, ht⟩, hs, hb⟩
    · exact ⟨f, .inr ⟨_, hm, by simp [hs, hb, ha]⟩, rfl⟩
    · refine ⟨f, .inl ⟨_, hm, ?_⟩, rfl⟩
      simp only [if_true]
      exact List.mem_filterMap.2 ⟨_, ht, by simp [hs, hb]⟩

theorem mem_templateBaseItems (rec : Nat → List Item) (b : Base) (x : Item) : x ∈ templateBaseItems E rec b ↔
    b.access = .pub ∧ b.isVirtual = false ∧ ∃ j, b.record = some j ∧ skipClass E j = .ok false ∧
      (x ∈ dataMembers E j ∨ x ∈ memberFunctions E j ∨ x ∈ rec j) := by
  unfold templateBaseItems
  by_cases hab : (b.access == .pub && !b.isVirtual) = true
  · rw [if_pos hab]
    simp only [Bool.and_eq_true, beq_iff_eq, Bool.not_eq_true'] at hab
    cases hr : b.record with
    | none => simp
    | some j =>
      by_cases hk : (!answer (skipClass E j)) = true
      · simp only [if_pos hk, List.mem_append, hab, true_and, Option.some.injEq, or_assoc]
        constructor
        · intro h; exact ⟨j, rfl, answer_not.1 hk, h⟩
        · rintro ⟨_, rfl, _, h⟩; exact h
      · simp only [if_neg hk]
        constructor
        · intro h; cases h
        · rintro ⟨_, _, j', hj, h, _⟩
          cases hj
          exact absurd (answer_not.2 h) hk
  · rw [if_neg hab]
    constructor
    · intro h; cases h
    · rintro ⟨h1, h2, _⟩
      exact absurd (by simp [h1, h2]) hab

/-- The members bound because of template bases. -/
theorem mem_templateBasesF (hw : E.Wellfounded) : ∀ (n i : Nat), E.baseRank i < n → ∀ x, x ∈ templateBasesF E n i ↔
    ∃ k, TemplateBase E (fun j => skipClass E j ≠ .ok false) i k ∧ (x ∈ dataMembers E k ∨ x ∈ memberFunctions E k)
  | 0, _, h, _ => by omega
  | n + 1, i, h, x => by
    have hmem : x ∈ templateBasesF E (n + 1) i ↔ (E.cls i).targs.isSome = true ∧ ∃ b ∈ (E.cls i).bases,
        x ∈ templateBaseItems E (templateBasesF E n) b := by
      simp only [templateBasesF]
      by_cases hs : (E.cls i).isSpecialization = true
      · rw [if_pos hs, List.mem_flatMap]; exact ⟨fun h => ⟨hs, h⟩, fun h => h.2⟩
      · rw [if_neg hs]; exact ⟨fun h => (by cases h), fun h => absurd h.1 hs⟩
    rw [hmem]
    constructor
    · rintro ⟨hs, b, hb, hx⟩
      obtain ⟨ha, hv, j, hr, hk, hx⟩ := (mem_templateBaseItems E _ b x).1 hx
      have hk' : ¬ (skipClass E j ≠ .ok false) := fun h => h hk
      rcases hx with hx | hx | hx
      · exact ⟨j, .one hs hb ha hv hr hk', .inl hx⟩
      · exact ⟨j, .one hs hb ha hv hr hk', .inr hx⟩
      · have := hw.bases i b hb j hr
        obtain ⟨k, ht, hx⟩ := (mem_templateBasesF hw n j (by omega) x).1 hx
        exact ⟨k, .more hs hb ha hv hr hk' ht, hx⟩
    · rintro ⟨k, hk, hx⟩
      cases hk with
      | @one _ _ b hs hb ha hv hr hk =>
        exact ⟨hs, b, hb, (mem_templateBaseItems E _ b x).2 ⟨ha, hv, k, hr, Classical.byContradiction hk, by
          rcases hx with hx | hx
          · exact .inl hx
          · exact .inr (.inl hx)⟩⟩
      | @more _ j _ b hs hb ha hv hr hk ht =>
        have := hw.bases i b hb j hr
        exact ⟨hs, b, hb, (mem_templateBaseItems E _ b x).2 ⟨ha, hv, j, hr, Classical.byContradiction hk,
          .inr (.inr ((mem_templateBasesF hw n j (by omega) x).2 ⟨k, ht, hx⟩))⟩⟩

end Binder
