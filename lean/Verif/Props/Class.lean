import Verif.Lemmas.Class
import Verif.Props.Trampoline

/-!
# C48, C52, C60 - C64: what is bound for a class
-/

namespace Binder

open Cxx Spec

variable (E : Env)

/-! ## C48: the members -/

theorem ctorItem_kind (t : Func) : ctorItem t = .copyCtor t ∨ ctorItem t = .defaultCtor t ∨ ctorItem t = .ctor t := by
  unfold ctorItem; split
  · exact .inl rfl
  · split
    · exact .inr (.inl rfl)
    · exact .inr (.inr rfl)

theorem mem_usedCtors {C : Record} {t : Func} : t ∈ usedCtors C ↔ MadePublic C (.method t) ∧ t.isCtor = true := by
  simp only [usedCtors, List.mem_flatMap, MadePublic]
  constructor
  · rintro ⟨m, hm, h⟩
    split at h
    · rename_i a ts
      split at h
      · rename_i ha; subst ha
        obtain ⟨x, hx, h⟩ := List.mem_filterMap.1 h
        split at h
        · split at h
          · cases h; exact ⟨⟨ts, hm, hx⟩, by assumption⟩
          · cases h
        · cases h
      · cases h
    · cases h
  · rintro ⟨⟨ts, hm, ht⟩, hc⟩
    refine ⟨_, hm, ?_⟩
    simp only [if_true]
    exact List.mem_filterMap.2 ⟨_, ht, by simp [hc]⟩

theorem baseDefaultsF_iff (hw : E.Wellfounded) : ∀ (n i : Nat), E.baseRank i < n →
    (baseDefaultsF E n i = true ↔ ∀ k, ProperBase E i k → DefaultUsable (E.cls k)) := by
  intro n
  induction n with
  | zero => intro i h; omega
  | succ n ih =>
    intro i hi
    have hown : ∀ j, ((E.cls j).hasDefaultConstructor &&
        !((E.cls j).methods.any fun t => t.isCtor && (t.isDefaultCtor && (t.access == .priv || t.isDeleted)))) = true ↔ DefaultUsable (E.cls j) := by
      intro j
      unfold DefaultUsable
      rw [Bool.and_eq_true, Bool.not_eq_true', List.any_eq_false]
      refine and_congr_right fun _ => ?_
      constructor
      · intro h t ht h1 h2
        have := h t (mem_methods.2 ht)
        simpa [h1, h2] using this
      · intro h t ht
        rw [mem_methods] at ht
        cases h1 : t.isCtor <;> cases h2 : t.isDefaultCtor <;> simp
        have := h t ht h1 h2
        simpa using this
    rw [baseDefaultsF, List.all_eq_true]
    constructor
    · rintro h k ⟨b, hb, j, hj, hk⟩
      have hb' := h b hb
      rw [hj] at hb'
      simp only at hb'
      rw [Bool.and_eq_true, hown, ih j (by have := hw.bases i b hb j hj; omega)] at hb'
      cases hk with
      | refl => exact hb'.1
      | step h1 _ h2 h3 => exact hb'.2 k ⟨_, h1, _, h2, h3⟩
    · intro h b hb
      cases hj : b.record with
      | none => rfl
      | some j =>
        simp only
        rw [Bool.and_eq_true, hown, ih j (by have := hw.bases i b hb j hj; omega)]
        exact ⟨h j ⟨b, hb, j, hj, .refl⟩, fun k ⟨b', hb', j', hj', hk⟩ => h k ⟨b, hb, j, hj, .step hb' trivial hj' hk⟩⟩

/-- C48, the condition of the implicit default constructor in `C48_constructors_partial`: all bases, and their bases, have default constructors that are
neither private nor deleted. -/
theorem C48_base_defaults (hw : E.Wellfounded) (i : Nat) : baseDefaults E i = true ↔ ∀ k, ProperBase E i k → DefaultUsable (E.cls k) :=
  baseDefaultsF_iff E hw _ i (Nat.lt_succ_self _)

/-- `C48_base_defaults` for a class whose base has no default constructor, and for one without bases. -/
example : baseDefaults { exampleEnv with baseRank := id, cls := fun i => [{ exampleRecord with hasDefaultConstructor := false },
    { exampleRecord with bases := [⟨.pub, false, some 0⟩] }].getD i exampleRecord } 1 = false ∧ baseDefaults exampleEnv 0 = true := by decide

/-- C48 for constructors, as the code has it: which constructor statements a class gets. Own constructors are public, not deleted
(`functionBindable`), not skipped and not move constructors. Constructors inherited through a public `using` declaration only have to be
bindable: their access and the skip entries are not looked at (`C48_inherited_skip_false`, `C48_inherited_access_false`). The implicit
default constructor is bound if no other default constructor is declared and all bases can be constructed without arguments; whether
the fields can is not checked (`C48_deleted_default_false`). Nothing is bound for an anonymous class, nor for an abstract class without
callback structure. -/
theorem C48_constructors_partial (i : Nat) (x : Item) : x ∈ ctorItems E i ↔
    ((E.cls i).isAbstract = false ∨ trampoline E i = true) ∧ (E.cls i).isAnonymous = false ∧
    ((x = .implicitDefault ∧ (E.cls i).needsImplicitDefaultConstructor = true ∧ baseDefaults E i = true ∧
        ¬ ∃ t, t.isCtor = true ∧ t.isDefaultCtor = true ∧ (Member.method t ∈ (E.cls i).members ∨ MadePublic (E.cls i) (.method t))) ∨
     (∃ t, x = ctorItem t ∧ t.isCtor = true ∧ Member.method t ∈ (E.cls i).members ∧ t.access = .pub ∧ t.isMoveCtor = false ∧
        functionBindable E t = true ∧ skipFunction E t = .ok false) ∨
     (∃ t, x = ctorItem t ∧ t.isCtor = true ∧ MadePublic (E.cls i) (.method t) ∧ t.isCopyCtor = false ∧ functionBindable E t = true)) := by
  have hdp : defaultProcessed (E.cls i) = true ↔ ∃ t, t.isCtor = true ∧ t.isDefaultCtor = true ∧
      (Member.method t ∈ (E.cls i).members ∨ MadePublic (E.cls i) (.method t)) := by
    simp only [defaultProcessed, Bool.or_eq_true, List.any_eq_true, mem_methods, mem_usedCtors, Bool.and_eq_true]
    constructor
    · rintro (⟨t, h1, h2, h3⟩ | ⟨t, ⟨h1, h2⟩, h3⟩)
      · exact ⟨t, h2, h3, .inl h1⟩
      · exact ⟨t, h2, h3, .inr h1⟩
    · rintro ⟨t, h1, h2, h3 | h3⟩
      · exact .inl ⟨t, h3, h1, h2⟩
      · exact .inr ⟨t, ⟨h3, h1⟩, h2⟩
  have hown : x ∈ ownCtors E (E.cls i) ↔ ∃ t, x = ctorItem t ∧ t.isCtor = true ∧ Member.method t ∈ (E.cls i).members ∧ t.access = .pub ∧
      t.isMoveCtor = false ∧ functionBindable E t = true ∧ skipFunction E t = .ok false := by
    simp only [ownCtors, List.mem_map, List.mem_filter, mem_methods, Bool.and_eq_true, beq_iff_eq, Bool.not_eq_true', answer_false]
    constructor
    · rintro ⟨t, ⟨h1, h2, ⟨⟨h3, h4⟩, h5⟩, h6⟩, rfl⟩; exact ⟨t, rfl, h2, h1, h3, h4, h5, h6⟩
    · rintro ⟨t, rfl, h2, h1, h3, h4, h5, h6⟩; exact ⟨t, ⟨h1, h2, ⟨⟨h3, h4⟩, h5⟩, h6⟩, rfl⟩
  have hinh : x ∈ inheritedCtors E (E.cls i) ↔ ∃ t, x = ctorItem t ∧ t.isCtor = true ∧ MadePublic (E.cls i) (.method t) ∧
      t.isCopyCtor = false ∧ functionBindable E t = true := by
    simp only [inheritedCtors, List.mem_map, List.mem_filter, mem_usedCtors, Bool.and_eq_true, Bool.not_eq_true']
    constructor
    · rintro ⟨t, ⟨⟨h1, h2⟩, h3, h4⟩, rfl⟩; exact ⟨t, rfl, h2, h1, h4, h3⟩
    · rintro ⟨t, rfl, h2, h1, h4, h3⟩; exact ⟨t, ⟨⟨h1, h2⟩, h3, h4⟩, rfl⟩
  rw [← hown, ← hinh, ← hdp]
  simp only [ctorItems]
  by_cases hc : ((!(E.cls i).isAbstract || trampoline E i) && !(E.cls i).isAnonymous) = true
  · rw [if_pos hc]
    simp only [Bool.and_eq_true, Bool.or_eq_true, Bool.not_eq_true'] at hc
    simp only [hc, true_and, List.mem_append, or_assoc]
    refine or_congr ?_ Iff.rfl
    split
    · rename_i h
      simp only [Bool.and_eq_true, Bool.not_eq_true'] at h
      simp [h]
    · rename_i h
      constructor
      · intro h; cases h
      · rintro ⟨_, h1, h2, h3⟩
        exact absurd (by simp [h1, h2, h3]) h
  · rw [if_neg hc]
    constructor
    · intro h; cases h
    · rintro ⟨h1, h2, _⟩
      refine absurd ?_ hc
      simp [h1, h2]

theorem ctorItems_kind {i : Nat} {x : Item} (h : x ∈ ctorItems E i) :
    x = .implicitDefault ∨ ∃ t, x = .copyCtor t ∨ x = .defaultCtor t ∨ x = .ctor t := by
  rcases ((C48_constructors_partial E i x).1 h).2.2 with ⟨h, _⟩ | ⟨t, rfl, _⟩ | ⟨t, rfl, _⟩
  · exact .inl h
  · exact .inr ⟨t, ctorItem_kind t⟩
  · exact .inr ⟨t, ctorItem_kind t⟩

theorem enumItems_kind {C : Record} {x : Item} (h : x ∈ enumItems E C) : ∃ e, x = .enum e := by
  obtain ⟨m, _, h⟩ := List.mem_filterMap.1 h
  split at h
  · split at h
    · cases h; exact ⟨_, rfl⟩
    · cases h
  · cases h

theorem reprItems_kind {i : Nat} {x : Item} (h : x ∈ reprItems E i) : ∃ F, x = .repr F := by
  simp only [reprItems] at h
  split at h
  · cases h
  · split at h
    · exact ⟨_, by simpa using h⟩
    · cases h

theorem addOnItems_kind {C : Record} {x : Item} (h : x ∈ addOnItems E C) : ∃ b, x = .addOn b := by
  simp only [addOnItems] at h
  split at h
  · exact ⟨_, by simpa using h⟩
  · cases h

/-- The fields and methods of a class binding: those of the class and those of its template bases. -/
theorem mem_members (hw : E.Wellfounded) (i : Nat) (x : Item) :
    (x ∈ dataMembers E i ∨ x ∈ memberFunctions E i ∨ x ∈ templateBases E i) ↔
    ∃ k, (k = i ∨ TemplateBase E (fun j => skipClass E j ≠ .ok false) i k) ∧ (x ∈ dataMembers E k ∨ x ∈ memberFunctions E k) := by
  rw [show x ∈ templateBases E i ↔ _ from mem_templateBasesF E hw _ i (Nat.lt_succ_self _) x]
  constructor
  · rintro (h | h | ⟨k, hk, h⟩)
    · exact ⟨i, .inl rfl, .inl h⟩
    · exact ⟨i, .inl rfl, .inr h⟩
    · exact ⟨k, .inr hk, h⟩
  · rintro ⟨k, rfl | hk, h⟩
    · rcases h with h | h
      · exact .inl h
      · exact .inr (.inl h)
    · exact .inr (.inr ⟨k, hk, h⟩)

/-- C48 for member functions. A function is bound as a method of class `i` exactly if it is a public member of `i`, or made public in `i`
by a `using` declaration, or the same for a public base of a class template specialisation that is not skipped; and it can be bound (in
particular it is not deleted), no request says to skip it (see `C44_skip_entries`), it is not a constructor or destructor, and it
is not the `const` twin of another member function of its class. -/
theorem C48_methods (hw : E.Wellfounded) (i : Nat) (f : Func) : (∃ parent lam, Item.method f parent lam ∈ classItems E i) ↔
    (∃ k, (k = i ∨ TemplateBase E (fun j => skipClass E j ≠ .ok false) i k) ∧
      (PublicMethod (E.cls k) f ∨ (MadePublic (E.cls k) (.method f) ∧ f.method.isSome = true))) ∧
    functionBindable E f = true ∧ skipFunction E f = .ok false ∧ f.isCtor = false ∧ f.isDtor = false ∧ isConstOverload E f = false := by
  rw [← memberWanted_iff]
  have hin : ∀ parent lam, Item.method f parent lam ∈ classItems E i ↔
      (Item.method f parent lam ∈ dataMembers E i ∨ Item.method f parent lam ∈ memberFunctions E i ∨
        Item.method f parent lam ∈ templateBases E i) := by
    intro parent lam
    simp only [classItems, List.mem_append]
    constructor
    · rintro ((((((h | h) | h) | h) | h) | h) | h)
      · rcases ctorItems_kind E h with h | ⟨t, h | h | h⟩ <;> cases h
      · obtain ⟨e, h⟩ := enumItems_kind E h; cases h
      · exact .inl h
      · exact .inr (.inl h)
      · exact .inr (.inr h)
      · obtain ⟨e, h⟩ := reprItems_kind E h; cases h
      · obtain ⟨e, h⟩ := addOnItems_kind E h; cases h
    · rintro (h | h | h) <;> simp [h]
  constructor
  · rintro ⟨parent, lam, h⟩
    obtain ⟨k, hk, h | h⟩ := (mem_members E hw i _).1 ((hin parent lam).1 h)
    · obtain ⟨g, hg, _⟩ := (mem_dataMembers E k _).1 h; cases hg
    · rcases (mem_memberFunctions E k _).1 h with ⟨g, hg, h1, h2, h3⟩ | ⟨g, hg, h1, h2⟩
      · cases hg; exact ⟨⟨k, hk, .inr ⟨h1, h2⟩⟩, h3⟩
      · cases hg; exact ⟨⟨k, hk, .inl h1⟩, h2⟩
  · rintro ⟨⟨k, hk, h1 | ⟨h1, h2⟩⟩, h3⟩
    · exact ⟨none, false, (hin _ _).2 ((mem_members E hw i _).2 ⟨k, hk, .inr ((mem_memberFunctions E k _).2 (.inr ⟨f, rfl, h1, h3⟩))⟩)⟩
    · exact ⟨some k, true, (hin _ _).2 ((mem_members E hw i _).2
        ⟨k, hk, .inr ((mem_memberFunctions E k _).2 (.inl ⟨f, rfl, h1, h2, h3⟩))⟩)⟩

/-- C48: no deleted function is bound. -/
theorem C48_not_deleted (i : Nat) (x : Item) (t : Func) (hx : x ∈ classItems E i)
    (h : x = .defaultCtor t ∨ x = .copyCtor t ∨ x = .ctor t ∨ ∃ p l, x = .method t p l) (hw : E.Wellfounded) : t.isDeleted = false := by
  have hb : functionBindable E t = true := by
    rcases h with h | h | h | ⟨p, l, rfl⟩
    case inr.inr.inr => exact ((C48_methods E hw i t).1 ⟨p, l, hx⟩).2.1
    all_goals
      simp only [classItems, List.mem_append] at hx
      rcases hx with ((((((hx | hx) | hx) | hx) | hx) | hx) | hx)
      · rcases ((C48_constructors_partial E i x).1 hx).2.2 with ⟨h', _⟩ | ⟨t', h', _, _, _, _, hb, _⟩ | ⟨t', h', _, _, _, hb⟩
        · rw [h'] at h; cases h
        · rcases ctorItem_kind t' with e | e | e <;> rw [h', e] at h <;> cases h <;> exact hb
        · rcases ctorItem_kind t' with e | e | e <;> rw [h', e] at h <;> cases h <;> exact hb
      · obtain ⟨e, h'⟩ := enumItems_kind E hx; rw [h'] at h; cases h
      · obtain ⟨e, h', _⟩ := (mem_dataMembers E i _).1 hx; rw [h'] at h; cases h
      · rcases (mem_memberFunctions E i _).1 hx with ⟨e, h', _⟩ | ⟨e, h', _⟩ <;> rw [h'] at h <;> cases h
      · obtain ⟨k, hk, hx | hx⟩ := (mem_templateBasesF E hw _ i (Nat.lt_succ_self _) x).1 hx
        · obtain ⟨e, h', _⟩ := (mem_dataMembers E k _).1 hx; rw [h'] at h; cases h
        · rcases (mem_memberFunctions E k _).1 hx with ⟨e, h', _⟩ | ⟨e, h', _⟩ <;> rw [h'] at h <;> cases h
      · obtain ⟨e, h'⟩ := reprItems_kind E hx; rw [h'] at h; cases h
      · obtain ⟨e, h'⟩ := addOnItems_kind E hx; rw [h'] at h; cases h
  simp only [functionBindable, Bool.and_eq_true, Bool.not_eq_true'] at hb
  exact hb.1.1.1.1.1.1.2

/-- C48 for fields: a field is bound exactly if it is public or made public by a `using` declaration, in the class or in a public base of
a class template specialisation that is not skipped, and it is not named in a skip entry and has a type that can be bound. -/
theorem C48_fields (hw : E.Wellfounded) (i k : Nat) (f : Field) : Item.field k f ∈ classItems E i ↔
    (k = i ∨ TemplateBase E (fun j => skipClass E j ≠ .ok false) i k) ∧ (PublicField (E.cls k) f ∨ MadePublic (E.cls k) (.field f)) ∧
    fieldSkippingRequested E.cfg f.qname = false ∧ fieldBindable E f = true := by
  have hin : Item.field k f ∈ classItems E i ↔
      (Item.field k f ∈ dataMembers E i ∨ Item.field k f ∈ memberFunctions E i ∨ Item.field k f ∈ templateBases E i) := by
    simp only [classItems, List.mem_append]
    constructor
    · rintro ((((((h | h) | h) | h) | h) | h) | h)
      · rcases ctorItems_kind E h with h | ⟨t, h | h | h⟩ <;> cases h
      · obtain ⟨e, h⟩ := enumItems_kind E h; cases h
      · exact .inl h
      · exact .inr (.inl h)
      · exact .inr (.inr h)
      · obtain ⟨e, h⟩ := reprItems_kind E h; cases h
      · obtain ⟨e, h⟩ := addOnItems_kind E h; cases h
    · rintro (h | h | h) <;> simp [h]
  rw [hin, mem_members E hw]
  constructor
  · rintro ⟨k', hk, h | h⟩
    · obtain ⟨g, hg, h⟩ := (mem_dataMembers E k' _).1 h
      cases hg; exact ⟨hk, h⟩
    · rcases (mem_memberFunctions E k' _).1 h with ⟨g, hg, _⟩ | ⟨g, hg, _⟩ <;> cases hg
  · rintro ⟨hk, h⟩
    exact ⟨k, hk, .inl ((mem_dataMembers E k _).2 ⟨f, rfl, h⟩)⟩

/-- C48 for enumerations: an enumeration is bound inside a class exactly if it is a public member of it that can be bound and that no
request says to skip. -/
theorem C48_enums (hw : E.Wellfounded) (i e : Nat) : Item.enum e ∈ classItems E i ↔
    Member.enum e ∈ (E.cls i).members ∧ (E.enumD e).access = .pub ∧ enumBindable (E.enumD e) = true ∧ skipEnum E (E.enumD e) = .ok false := by
  have hin : Item.enum e ∈ classItems E i ↔ Item.enum e ∈ enumItems E (E.cls i) := by
    simp only [classItems, List.mem_append]
    constructor
    · rintro ((((((h | h) | h) | h) | h) | h) | h)
      · rcases ctorItems_kind E h with h | ⟨t, h | h | h⟩ <;> cases h
      · exact h
      · obtain ⟨e, h, _⟩ := (mem_dataMembers E i _).1 h; cases h
      · rcases (mem_memberFunctions E i _).1 h with ⟨g, hg, _⟩ | ⟨g, hg, _⟩ <;> cases hg
      · obtain ⟨k, _, h | h⟩ := (mem_templateBasesF E hw _ i (Nat.lt_succ_self _) _).1 h
        · obtain ⟨e, h, _⟩ := (mem_dataMembers E k _).1 h; cases h
        · rcases (mem_memberFunctions E k _).1 h with ⟨g, hg, _⟩ | ⟨g, hg, _⟩ <;> cases hg
      · obtain ⟨e, h⟩ := reprItems_kind E h; cases h
      · obtain ⟨e, h⟩ := addOnItems_kind E h; cases h
    · intro h; simp [h]
  rw [hin, enumItems, List.mem_filterMap]
  constructor
  · rintro ⟨m, hm, h⟩
    split at h
    · split at h
      · rename_i hc
        cases h
        simp only [Bool.and_eq_true, beq_iff_eq, answer_not] at hc
        exact ⟨hm, hc.1.1, hc.1.2, hc.2⟩
      · cases h
    · cases h
  · rintro ⟨hm, h1, h2, h3⟩
    refine ⟨_, hm, ?_⟩
    simp [h1, h2, h3, answer]

end Binder
