import Verif.Props.ClassHead
import Verif.Spec.Types

/-!
# C47, C57: types
-/

namespace Binder

open Cxx Spec

variable (E : Env)

theorem hidden_iff (a : Access) : hidden a = false ↔ Accessible a := by
  cases a <;> simp [hidden, Accessible]

theorem tyHeadOk_usable {ok : Nat → Bool} {t : Ty} (h : tyHeadOk E ok t = true) (hp : ∀ p, t.head = .ptr p → p.isPointer = false ∧ p.isArray = false) :
    Usable E (fun j => ok j = true) t := by
  simp only [tyHeadOk, Bool.and_eq_true, Bool.not_eq_true'] at h
  obtain ⟨⟨⟨⟨⟨h1, h2⟩, h3⟩, h4⟩, h5⟩, h6⟩ := h
  refine ⟨?_, ?_, ?_, ?_, ?_, h3, ?_, ?_⟩
  · intro p hp r ps hr
    simp [Ty.isFnPointer, hp, Ty.isFn, hr] at h1
  · intro p q h hq
    have := (hp p h).1
    simp [Ty.isPointer, hq] at this
  · intro p q h hq
    have := (hp p h).2
    simp [Ty.isArray, hq] at this
  · intro p h; simp [Ty.isRRef, h] at h2
  · intro p h; simp [Ty.isArray, h] at h4
  · intro j h
    simp only [Ty.asRecord, h, Bool.and_eq_true, Bool.not_eq_true'] at h5
    exact ⟨h5.1, (hidden_iff _).1 h5.2⟩
  · intro j h
    simp only [Ty.asEnum, h, Bool.not_eq_true'] at h6
    exact (hidden_iff _).1 h6

theorem usable_const {ok : Nat → Prop} {t : Ty} (h : Usable E ok t) : Usable E ok (.const t) :=
  ⟨h.1, h.2, h.3, h.4, h.5, by rw [Ty.dependent]; exact h.6, h.7, h.8⟩

theorem usable_sugar {ok : Nat → Prop} {k : Nat} {t : Ty} : Usable E ok (.sugar k t) ↔ Usable E ok t :=
  ⟨fun h => ⟨h.1, h.2, h.3, h.4, h.5, by have := h.6; rwa [Ty.dependent] at this, h.7, h.8⟩,
   fun h => ⟨h.1, h.2, h.3, h.4, h.5, by rw [Ty.dependent]; exact h.6, h.7, h.8⟩⟩

theorem usable_unconst {ok : Nat → Prop} {t : Ty} (h : Usable E ok (.const t)) : Usable E ok t :=
  ⟨h.1, h.2, h.3, h.4, h.5, by have := h.6; rwa [Ty.dependent] at this, h.7, h.8⟩

/-- A type whose head is no pointer or reference reaches only its own layers of qualifiers and typedefs. -/
theorem reaches_leaf {ok : Nat → Prop} {t u : Ty} (h : Mentions t u) (h1 : ∀ v, t.head ≠ .ptr v) (h2 : ∀ v, t.head ≠ .lref v)
    (h3 : ∀ v, t.head ≠ .rref v) (ht : Usable E ok t) : Usable E ok u := by
  induction h with
  | refl => exact ht
  | const _ ih => exact ih h1 h2 h3 (usable_unconst E ht)
  | sugar _ ih => exact ih h1 h2 h3 ((usable_sugar E).1 ht)
  | ptr => exact absurd rfl (h1 _)
  | lref => exact absurd rfl (h2 _)
  | rref => exact absurd rfl (h3 _)

theorem tyBindable_leaf {ok : Nat → Bool} : ∀ {t : Ty}, (∀ v, t.head ≠ .ptr v) → (∀ v, t.head ≠ .lref v) → (∀ v, t.head ≠ .rref v) →
    tyBindableWith E ok t = true → Usable E (fun j => ok j = true) t
  | .const t, h1, h2, h3, h => usable_const E (tyBindable_leaf (t := t) h1 h2 h3 (by rwa [tyBindableWith] at h))
  | .ptr t, h1, _, _, _ => absurd rfl (h1 t)
  | .lref t, _, h2, _, _ => absurd rfl (h2 t)
  | .rref t, _, _, h3, _ => absurd rfl (h3 t)
  | .basic k, _, _, _, h => tyHeadOk_usable E h (by intro p hp; cases hp)
  | .dep k, _, _, _, h => tyHeadOk_usable E h (by intro p hp; cases hp)
  | .arr k, _, _, _, h => tyHeadOk_usable E h (by intro p hp; cases hp)
  | .fn k _, _, _, _, h => tyHeadOk_usable E h (by intro p hp; cases hp)
  | .record k, _, _, _, h => tyHeadOk_usable E h (by intro p hp; cases hp)
  | .enum k, _, _, _, h => tyHeadOk_usable E h (by intro p hp; cases hp)
  | .sugar k t, h1, _, _, h => tyHeadOk_usable E h (by intro p hp; exact absurd hp (h1 p))

/-- The types for which `is_bindable` answers yes reach only usable types, if their pointers and references are not hidden. -/
theorem tyBindable_usable {ok : Nat → Bool} {t : Ty} (hu : Unhidden t) (h : tyBindableWith E ok t = true) (u : Ty) (hr : Mentions t u) :
    Usable E (fun j => ok j = true) u := by
  induction hu generalizing u with
  | const _ ih =>
    rw [tyBindableWith] at h
    cases hr with
    | refl => exact usable_const E (ih h _ .refl)
    | const hr => exact ih h _ hr
  | @ptr t ht ih =>
    simp only [tyBindableWith, Bool.and_eq_true, Bool.not_eq_true'] at h
    cases hr with
    | refl => exact tyHeadOk_usable E h.1.1.1.1 (by intro p hp; cases hp; exact ⟨h.1.1.1.2, h.1.1.2⟩)
    | ptr hr => exact ih h.2 _ hr
  | lref _ ih =>
    simp only [tyBindableWith, Bool.and_eq_true, Bool.not_eq_true'] at h
    cases hr with
    | refl => exact tyHeadOk_usable E h.1.1 (by intro p hp; cases hp)
    | lref hr => exact ih h.2 _ hr
  | rref _ ih =>
    simp only [tyBindableWith, Bool.and_eq_true, Bool.not_eq_true'] at h
    cases hr with
    | refl => exact tyHeadOk_usable E h.1.1 (by intro p hp; cases hp)
    | rref hr => exact ih h.2 _ hr
  | leaf h1 h2 h3 => exact reaches_leaf E hr h1 h2 h3 (tyBindable_leaf E h1 h2 h3 h)

theorem unhidden_mkConst : ∀ {t : Ty}, Unhidden t → Unhidden t.mkConst
  | .const _, h | .lref _, h | .rref _, h => h
  | .basic _, h | .dep _, h | .ptr _, h | .arr _, h | .fn _ _, h | .record _, h | .enum _, h | .sugar _ _, h => .const h

theorem unhidden_mkLRef : ∀ {t : Ty}, Unhidden t → Unhidden t.mkLRef
  | .lref _, h => h
  | .rref _, h => by
    cases h with
    | rref h => exact .lref h
    | leaf _ _ h => exact absurd rfl (h _)
  | .const _, h | .basic _, h | .dep _, h | .ptr _, h | .arr _, h | .fn _ _, h | .record _, h | .enum _, h | .sugar _ _, h => .lref h

theorem unhidden_mkRRef : ∀ {t : Ty}, Unhidden t → Unhidden t.mkRRef
  | .lref _, h | .rref _, h => h
  | .const _, h | .basic _, h | .dep _, h | .ptr _, h | .arr _, h | .fn _ _, h | .record _, h | .enum _, h | .sugar _ _, h => .rref h

/-- A canonical type hides nothing. -/
theorem unhidden_canon : ∀ t : Ty, Unhidden t.canon
  | .const t => by rw [Ty.canon]; exact unhidden_mkConst (unhidden_canon t)
  | .sugar _ t => by rw [Ty.canon]; exact unhidden_canon t
  | .ptr t => by rw [Ty.canon]; exact .ptr (unhidden_canon t)
  | .lref t => by rw [Ty.canon]; exact unhidden_mkLRef (unhidden_canon t)
  | .rref t => by rw [Ty.canon]; exact unhidden_mkRRef (unhidden_canon t)
  | .basic _ | .dep _ | .record _ | .enum _ => by rw [Ty.canon]; exact .leaf (by intro u h; cases h) (by intro u h; cases h) (by intro u h; cases h)
  | .arr _ => by rw [Ty.canon]; exact .leaf (by intro u h; cases h) (by intro u h; cases h) (by intro u h; cases h)
  | .fn _ _ => by rw [Ty.canon]; exact .leaf (by intro u h; cases h) (by intro u h; cases h) (by intro u h; cases h)

/-- C47 for classes: a class that can be bound can be named outside its file, does not depend on template parameters, and has a definition
or is an instance of a template. -/
theorem C47_classes (i : Nat) (h : classBindable E i = true) : UsableClass (E.cls i) := by
  unfold classBindable classBindableF at h
  simp only [Bool.if_false_left, Bool.and_eq_true, Bool.not_eq_true', decide_eq_false_iff_not, Bool.not_eq_true] at h
  obtain ⟨h1, h2, _, _, h5, h6, h7, _⟩ := h
  refine ⟨(hidden_iff _).1 h6, h1, ?_, h5, ?_⟩
  · cases hl : (E.cls i).hasNameForLinkage with
    | true => exact .inl rfl
    | false => exact .inr (by simpa [hl, Record.isMember, Option.isSome_iff_ne_none] using h2)
  · cases hc : (E.cls i).isComplete with
    | true => exact .inl rfl
    | false =>
      right
      cases hs : (E.cls i).isSpecialization with
      | true => exact hs
      | false => simp [hc, hs] at h7

/-- C47 for functions and constructors, through pointers and references. All types reached from the canonical type of a parameter of a
function that is bound are usable. The same holds for the result, if its pointers and references are not hidden behind a typedef
(`C47_return_typedef_false`). Template arguments of classes and enclosing classes are not looked at (`C47_template_argument_false`,
`C47_enclosing_false`). -/
theorem C47_functions_partial (F : Func) (h : functionBindable E F = true) :
    (∀ p ∈ F.params, ∀ u, Mentions p.ty.canon u → Usable E (fun j => UsableClass (E.cls j)) u) ∧
    (Unhidden F.ret → ∀ u, Mentions F.ret u → Usable E (fun j => UsableClass (E.cls j)) u) := by
  have key : ∀ t, Unhidden t → tyBindable E t = true → ∀ u, Mentions t u → Usable E (fun j => UsableClass (E.cls j)) u := by
    intro t ht hb u hr
    have := tyBindable_usable E ht hb u hr
    exact ⟨this.1, this.2, this.3, this.4, this.5, this.6, fun j hj => ⟨C47_classes E j (this.7 j hj).1, (this.7 j hj).2⟩, this.8⟩
  simp only [functionBindable, Bool.and_eq_true, List.all_eq_true] at h
  exact ⟨fun p hp => key _ (unhidden_canon _) (h.1.2 p hp), fun hu => key _ hu h.1.1.2⟩

/-- C47 for fields: the type of a field that is bound is no pointer or reference, and is usable. -/
theorem C47_fields (f : Field) (h : fieldBindable E f = true) :
    (∀ p, f.ty.head ≠ .ptr p) ∧ (∀ p, f.ty.head ≠ .lref p) ∧ ∀ u, Mentions f.ty u → Usable E (fun j => UsableClass (E.cls j)) u := by
  simp only [fieldBindable, Bool.and_eq_true, Bool.not_eq_true', Bool.or_eq_false_iff] at h
  obtain ⟨⟨⟨⟨h1, h2⟩, _⟩, _⟩, hb⟩ := h
  have hp : ∀ p, f.ty.head ≠ .ptr p := by intro p h; simp [Ty.isPointer, h] at h1
  have hl : ∀ p, f.ty.head ≠ .lref p := by intro p h; simp [Ty.isRef, Ty.isLRef, h] at h2
  have hr : ∀ p, f.ty.head ≠ .rref p := by intro p h; simp [Ty.isRef, Ty.isRRef, h] at h2
  refine ⟨hp, hl, ?_⟩
  intro u hu
  have := tyBindable_usable E (.leaf hp hl hr) hb u hu
  exact ⟨this.1, this.2, this.3, this.4, this.5, this.6, fun j hj => ⟨C47_classes E j (this.7 j hj).1, (this.7 j hj).2⟩, this.8⟩

/-- A program with the class `A`, whose private nested class is class 1. -/
def privateEnv : Env :=
  { exampleEnv with
    cls := fun i => if i = 0 then exampleRecord else if i = 1 then { exampleRecord with name := c!"P", qname := c!"A::P", access := .priv, outer := some 0 }
      else { exampleRecord with name := c!"V", qname := c!"V", targs := some [⟨c!"A::P", .type (.record 1)⟩] } }

/-- C47 fails for results: with `public: typedef P *T;` in a class with a private class `P`, the function `T f()` is bound. -/
theorem C47_return_typedef_false : ∃ F : Func, functionBindable privateEnv F = true ∧ ∃ j, Mentions F.ret (.record j) ∧
    (privateEnv.cls j).access = .priv :=
  ⟨exampleMethod c!"f" false (.sugar 7 (.ptr (.record 1))) [], by decide +kernel, 1, .sugar (.ptr .refl), rfl⟩

/-- C47 fails for template arguments: with a private class `P`, the function `void f(V<P>)` is bound. -/
theorem C47_template_argument_false : ∃ F : Func, functionBindable privateEnv F = true ∧ ∃ p ∈ F.params, ∃ j, p.ty.canon = .record j ∧
    ∃ args a t k, (privateEnv.cls j).targs = some args ∧ a ∈ args ∧ a.kind = .type t ∧ Mentions t (.record k) ∧ (privateEnv.cls k).access = .priv :=
  ⟨exampleMethod c!"f" false (.basic 0) [⟨c!"v", .record 2, false⟩], by decide +kernel, _, List.mem_cons_self, 2, rfl,
   [⟨c!"A::P", .type (.record 1)⟩], ⟨c!"A::P", .type (.record 1)⟩, .record 1, 1, rfl, List.mem_cons_self, rfl, .refl, rfl⟩

/-- A program with the class `A`, whose private nested class `P` is class 1, which has a public nested class `Q`, class 2. -/
def enclosedEnv : Env :=
  { exampleEnv with
    cls := fun i => if i = 0 then exampleRecord else if i = 1 then { exampleRecord with name := c!"P", qname := c!"A::P", access := .priv, outer := some 0 }
      else { exampleRecord with name := c!"Q", qname := c!"A::P::Q", access := .pub, outer := some 1 } }

/-- C47 fails for classes inside private classes: the function `void f(P::Q &)` is bound, although `A::P::Q` cannot be named outside `A`. -/
theorem C47_enclosing_false : ∃ F : Func, functionBindable enclosedEnv F = true ∧ ∃ p ∈ F.params, ∃ j k, Mentions p.ty.canon (.record j) ∧
    (enclosedEnv.cls j).outer = some k ∧ (enclosedEnv.cls k).access = .priv :=
  ⟨exampleMethod c!"f" false (.basic 0) [⟨c!"q", .lref (.record 2), false⟩], by decide +kernel, _, List.mem_cons_self, 2, 1,
   .lref .refl, rfl, rfl⟩

/-- The hypotheses of `C47_functions_partial` and `C47_fields` are met by `A & f(const A *)` and a field of type `A`; a function with a
parameter of type `A::P &` is not bound. -/
example : functionBindable privateEnv (exampleMethod c!"f" false (.lref (.record 0)) [⟨c!"a", .ptr (.const (.record 0)), false⟩]) = true ∧
    Unhidden (.lref (.record 0)) ∧ fieldBindable privateEnv ⟨c!"a", c!"A::a", .record 0, .pub, false⟩ = true ∧
    functionBindable privateEnv (exampleMethod c!"f" false (.basic 0) [⟨c!"a", .lref (.record 1), false⟩]) = false :=
  ⟨by decide +kernel, .lref (.leaf (by intro u h; cases h) (by intro u h; cases h) (by intro u h; cases h)), by decide +kernel, by decide +kernel⟩

/-! ## C57: requests -/

/-- A class or an enumeration. -/
def IsTag (u : Ty) : Prop := (∃ j, u = .record j) ∨ ∃ j, u = .enum j

theorem head_of_leaf {t u : Ty} (h : Mentions t u) (hu : IsTag u) (h1 : ∀ v, t.head ≠ .ptr v) (h2 : ∀ v, t.head ≠ .lref v)
    (h3 : ∀ v, t.head ≠ .rref v) : t.head = u := by
  induction h with
  | refl => obtain ⟨j, rfl⟩ | ⟨j, rfl⟩ := hu <;> rfl
  | const _ ih => exact ih hu h1 h2 h3
  | sugar _ ih => exact ih hu h1 h2 h3
  | ptr => exact absurd rfl (h1 _)
  | lref => exact absurd rfl (h2 _)
  | rref => exact absurd rfl (h3 _)

theorem leaf_requests {u : Ty} (hu : IsTag u) : ∀ {t : Ty}, t.head = u →
    namedClass t = u.asRecord ∧ tyRequests E t = if answer (skipTy E u) then [] else tagRequest E u
  | .const t, h => by
    rw [namedClass, tyRequests]
    exact leaf_requests hu (t := t) h
  | .ptr _, h | .lref _, h | .rref _, h | .basic _, h | .dep _, h | .arr _, h | .fn _ _, h => by
    obtain ⟨j, rfl⟩ | ⟨j, rfl⟩ := hu <;> cases h
  | .record k, h => by
    obtain ⟨j, rfl⟩ | ⟨j, rfl⟩ := hu <;> cases h
    exact ⟨rfl, rfl⟩
  | .enum k, h => by
    obtain ⟨j, rfl⟩ | ⟨j, rfl⟩ := hu <;> cases h
    exact ⟨rfl, rfl⟩
  | .sugar k t, h => by
    obtain ⟨j, rfl⟩ | ⟨j, rfl⟩ := hu
    · have hn : namedClass (.sugar k t) = some j := by simp only [namedClass, Ty.asRecord, h]
      exact ⟨hn, by simp only [tyRequests, skipTy, viaClass, hn, tagRequest, h]; rfl⟩
    · have hn : namedClass (.sugar k t) = none := by simp only [namedClass, Ty.asRecord, h]
      exact ⟨hn, by simp only [tyRequests, skipTy, viaClass, hn, tagRequest, h]; rfl⟩

/-- The requests for a type that leads to a class or enumeration. -/
theorem unhidden_requests {t u : Ty} (hh : Unhidden t) (hm : Mentions t u) (hu : IsTag u) :
    namedClass t = u.asRecord ∧ tyRequests E t = if answer (skipTy E u) then [] else tagRequest E u := by
  have skip : ∀ {p : Ty}, namedClass p = u.asRecord → skipTy E p = skipTy E u := by
    intro p hp
    obtain ⟨j, rfl⟩ | ⟨j, rfl⟩ := hu <;> simp only [skipTy, viaClass, hp] <;> rfl
  induction hh with
  | const _ ih =>
    cases hm with
    | refl => obtain ⟨j, h⟩ | ⟨j, h⟩ := hu <;> cases h
    | const hm => rw [namedClass, tyRequests]; exact ih hm
  | @ptr p _ ih =>
    cases hm with
    | refl => obtain ⟨j, h⟩ | ⟨j, h⟩ := hu <;> cases h
    | ptr hm =>
      obtain ⟨h1, h2⟩ := ih hm
      refine ⟨by rw [namedClass]; exact h1, ?_⟩
      rw [tyRequests, skip (p := .ptr p) (by rw [namedClass]; exact h1), h2]
      cases answer (skipTy E u) <;> rfl
  | @lref p _ ih =>
    cases hm with
    | refl => obtain ⟨j, h⟩ | ⟨j, h⟩ := hu <;> cases h
    | lref hm =>
      obtain ⟨h1, h2⟩ := ih hm
      refine ⟨by rw [namedClass]; exact h1, ?_⟩
      rw [tyRequests, skip (p := .lref p) (by rw [namedClass]; exact h1), h2]
      cases answer (skipTy E u) <;> rfl
  | @rref p _ ih =>
    cases hm with
    | refl => obtain ⟨j, h⟩ | ⟨j, h⟩ := hu <;> cases h
    | rref hm =>
      obtain ⟨h1, h2⟩ := ih hm
      refine ⟨by rw [namedClass]; exact h1, ?_⟩
      rw [tyRequests, skip (p := .rref p) (by rw [namedClass]; exact h1), h2]
      cases answer (skipTy E u) <;> rfl
  | leaf h1 h2 h3 => exact leaf_requests E hu (head_of_leaf hm hu h1 h2 h3)

theorem mentions_mkConst {u : Ty} : ∀ {t : Ty}, Mentions t u → Mentions t.mkConst u
  | .const _, h | .lref _, h | .rref _, h => h
  | .basic _, h | .dep _, h | .ptr _, h | .arr _, h | .fn _ _, h | .record _, h | .enum _, h | .sugar _ _, h => .const h

theorem mentions_mkLRef {u : Ty} (hu : IsTag u) : ∀ {t : Ty}, Mentions t u → Mentions t.mkLRef u
  | .lref _, h => h
  | .rref _, h => by
    cases h with
    | refl => obtain ⟨j, h⟩ | ⟨j, h⟩ := hu <;> cases h
    | rref h => exact .lref h
  | .const _, h | .basic _, h | .dep _, h | .ptr _, h | .arr _, h | .fn _ _, h | .record _, h | .enum _, h | .sugar _ _, h => .lref h

theorem mentions_mkRRef {u : Ty} : ∀ {t : Ty}, Mentions t u → Mentions t.mkRRef u
  | .lref _, h | .rref _, h => h
  | .const _, h | .basic _, h | .dep _, h | .ptr _, h | .arr _, h | .fn _ _, h | .record _, h | .enum _, h | .sugar _ _, h => .rref h

theorem mentions_canon {t u : Ty} (h : Mentions t u) (hu : IsTag u) : Mentions t.canon u := by
  induction h with
  | refl => obtain ⟨j, rfl⟩ | ⟨j, rfl⟩ := hu <;> exact .refl
  | const _ ih => rw [Ty.canon]; exact mentions_mkConst (ih hu)
  | sugar _ ih => rw [Ty.canon]; exact ih hu
  | ptr _ ih => rw [Ty.canon]; exact .ptr (ih hu)
  | lref _ ih => rw [Ty.canon]; exact mentions_mkLRef hu (ih hu)
  | rref _ ih => rw [Ty.canon]; exact mentions_mkRRef (ih hu)

/-- The name `s` is that of a class or enumeration that `t` mentions, that is defined or an instance of a template, and that the user did
not ask to skip. -/
inductive Requestable (t : Ty) : Str → Prop where
  | cls {j} : Mentions t (.record j) → ((E.cls j).isComplete = true ∨ (E.cls j).targs.isSome = true) → skipClass E j = .ok false →
      Requestable t (typeNameOfRecord E j)
  | enm {j} : Mentions t (.enum j) → (E.enumD j).isComplete = true → Requestable t (typeNameOfEnum E j)

theorem requestable_mem {t : Ty} {s : Str} (hh : Unhidden t) (h : Requestable E t s) : s ∈ tyRequests E t := by
  cases h with
  | @cls j hm hc hs =>
    have h1 : skipTy E (.record j) = .ok false := hs
    have h2 : ((E.cls j).isComplete || (E.cls j).isSpecialization) = true := by simpa [Record.isSpecialization] using hc
    rw [(unhidden_requests E hh hm (.inl ⟨j, rfl⟩)).2, h1]
    simp only [answer, Bool.false_eq_true, if_false, tagRequest, Ty.head, h2, if_true, List.mem_cons, List.not_mem_nil, or_false]
  | @enm j hm hc =>
    have h1 : skipTy E (.enum j) = .ok false := rfl
    rw [(unhidden_requests E hh hm (.inr ⟨j, rfl⟩)).2, h1]
    simp only [answer, Bool.false_eq_true, if_false, tagRequest, Ty.head, hc, if_true, List.mem_cons, List.not_mem_nil, or_false]

theorem requestable_canon {t : Ty} {s : Str} (h : Requestable E t s) : Requestable E t.canon s := by
  cases h with
  | cls hm hc hs => exact .cls (mentions_canon hm (.inl ⟨_, rfl⟩)) hc hs
  | enm hm hc => exact .enm (mentions_canon hm (.inr ⟨_, rfl⟩)) hc

/-- C57 for functions: binding a function requests the classes and enumerations its result mentions, also behind typedefs, and those that
its parameters mention, if their pointers and references are not hidden behind a typedef (`C57_parameter_typedef_false`). -/
theorem C57_functions_partial (F : Func) (s : Str) :
    (Requestable E F.ret s → s ∈ bindFunctionRequests E F) ∧
    (∀ p ∈ F.params, Unhidden p.ty → Requestable E p.ty s → s ∈ bindFunctionRequests E F) := by
  refine ⟨fun h => ?_, fun p hp hu h => ?_⟩
  · exact List.mem_append_left _ (requestable_mem E (unhidden_canon _) (requestable_canon E h))
  · exact List.mem_append_right _ (List.mem_flatMap.2 ⟨p, hp, requestable_mem E hu h⟩)

/-- C57 for classes: binding a class requests the classes and enumerations mentioned by the methods that are bound with it, its own and
those taken from base classes that are class templates, and by the constructors with arguments; and all that its nested classes request.
For the bases of the class see `C61_bases_requested`; the types of fields are not requested (`C57_field_false`). -/
theorem C57_classes_partial (hw : E.Wellfounded) (i : Nat) (s : Str) (hb : builtinDecl E (E.cls i).qname = false)
    (he : E.cfg.binders (stdName E (E.cls i).qname) = none) :
    (∀ f parent lam, Item.method f parent lam ∈ classItems E i →
      Requestable E f.ret s ∨ (∃ p ∈ f.params, Unhidden p.ty ∧ Requestable E p.ty s) → s ∈ (classOutput E i).requests) ∧
    (∀ t, Item.ctor t ∈ classItems E i → t.isVariadic = false →
      (∃ p ∈ t.params, Unhidden p.ty ∧ Requestable E p.ty s) → s ∈ (classOutput E i).requests) ∧
    (∀ j ∈ nestedBound E (E.cls i), s ∈ (classOutput E j).requests → s ∈ (classOutput E i).requests) := by
  rw [classOutput_eq E hw i hb he]
  refine ⟨fun f parent lam hf h => ?_, fun t ht hv h => ?_, fun j hj h => ?_⟩
  · apply List.mem_append_left
    apply List.mem_append_right
    refine List.mem_flatMap.2 ⟨_, hf, ?_⟩
    rcases h with h | ⟨p, hp, hu, h⟩
    · exact (C57_functions_partial E f s).1 h
    · exact (C57_functions_partial E f s).2 p hp hu h
  · apply List.mem_append_left
    apply List.mem_append_right
    refine List.mem_flatMap.2 ⟨_, ht, ?_⟩
    obtain ⟨p, hp, hu, h⟩ := h
    simp only [itemRequests, hv, Bool.false_eq_true, if_false]
    exact List.mem_flatMap.2 ⟨p, hp, requestable_mem E hu h⟩
  · exact List.mem_append_right _ (List.mem_flatMap.2 ⟨j, hj, h⟩)

theorem mem_tagRequest {t : Ty} {s : Str} (hs : answer (skipTy E t) = false) (hn : ∀ j, t.head = .record j → namedClass t = some j)
    (hm : Mentions t t.head) (h : s ∈ tagRequest E t) : Requestable E t s := by
  unfold tagRequest at h
  split at h
  · rename_i j hj
    split at h
    · rename_i hc
      have hsk : skipClass E j = .ok false := by
        rw [skipTy, viaClass, hn j hj] at hs
        exact answer_false.1 hs
      cases List.mem_singleton.1 h
      exact .cls (hj ▸ hm) (by simpa [Record.isSpecialization] using hc) hsk
    · cases h
  · rename_i j hj
    split at h
    · cases List.mem_singleton.1 h
      exact .enm (hj ▸ hm) (by assumption)
    · cases h
  · cases h

theorem mentions_head : ∀ t : Ty, Mentions t t.head
  | .const t => .const (mentions_head t)
  | .sugar _ t => .sugar (mentions_head t)
  | .basic _ | .dep _ | .ptr _ | .lref _ | .rref _ | .arr _ | .fn _ _ | .record _ | .enum _ => .refl

/-- C57, the other direction: a type requests nothing but classes and enumerations that it mentions, that are defined or instances of a
template, and that the user did not ask to skip. -/
theorem C57_only_mentioned : ∀ (t : Ty) (s : Str), s ∈ tyRequests E t → Requestable E t s
  | .const t, s, h => by
    cases C57_only_mentioned t s (by rwa [tyRequests] at h) with
    | cls hm hc hs => exact .cls (.const hm) hc hs
    | enm hm hc => exact .enm (.const hm) hc
  | .ptr t, s, h => by
    rw [tyRequests] at h
    split at h
    · cases h
    · cases C57_only_mentioned t s h with
      | cls hm hc hs => exact .cls (.ptr hm) hc hs
      | enm hm hc => exact .enm (.ptr hm) hc
  | .lref t, s, h => by
    rw [tyRequests] at h
    split at h
    · cases h
    · cases C57_only_mentioned t s h with
      | cls hm hc hs => exact .cls (.lref hm) hc hs
      | enm hm hc => exact .enm (.lref hm) hc
  | .rref t, s, h => by
    rw [tyRequests] at h
    split at h
    · cases h
    · cases C57_only_mentioned t s h with
      | cls hm hc hs => exact .cls (.rref hm) hc hs
      | enm hm hc => exact .enm (.rref hm) hc
  | .sugar k t, s, h => by
    simp only [tyRequests] at h
    split at h
    · cases h
    · rename_i hs
      exact mem_tagRequest E (by simpa using hs) (by intro j hj; simp only [namedClass, Ty.asRecord, hj]) (mentions_head _) h
  | .record k, s, h => by
    simp only [tyRequests] at h
    split at h
    · cases h
    · rename_i hs
      exact mem_tagRequest E (by simpa using hs) (by intro j hj; simp only [namedClass, Ty.asRecord, hj]) (mentions_head _) h
  | .enum k, s, h => by
    simp only [tyRequests] at h
    split at h
    · cases h
    · rename_i hs
      exact mem_tagRequest E (by simpa using hs) (by intro j hj; simp only [namedClass, Ty.asRecord, hj]) (mentions_head _) h
  | .basic _, s, h | .dep _, s, h | .arr _, s, h | .fn _ _, s, h => by
    simp only [tyRequests, tagRequest, Ty.head] at h
    split at h <;> cases h

/-- A program with the classes `A` (class 0) and `V<A>` (class 2). -/
def publicArgument : Env :=
  { exampleEnv with
    cls := fun i => if i = 0 then exampleRecord
      else { exampleRecord with name := c!"V", qname := c!"V", targs := some [⟨c!"A", .type (.record 0)⟩] }
    tyName := fun t => if t = .record 2 then c!"V<A>" else exampleTyName t }

/-- C57 fails for template arguments: binding `void f(V<A>)` requests `V<A>` but not `A`. -/
theorem C57_template_argument_false : ∃ F : Func, functionBindable publicArgument F = true ∧
    bindFunctionRequests publicArgument F = [typeNameOfRecord publicArgument 2] ∧
    typeNameOfRecord publicArgument 0 ≠ typeNameOfRecord publicArgument 2 ∧ TypeArg (publicArgument.cls 2) (.record 0) :=
  ⟨exampleMethod c!"f" false (.basic 0) [⟨c!"v", .record 2, false⟩], by decide +kernel, by decide +kernel, by decide +kernel,
   _, rfl, _, List.mem_cons_self, rfl⟩

/-- C57 fails for parameters with a typedef: with `typedef A *P;`, binding `void f(P)` requests nothing, although `P f()` requests `A`. -/
theorem C57_parameter_typedef_false : ∃ (F G : Func) (s : Str), functionBindable exampleEnv F = true ∧ (∃ p ∈ F.params, Requestable exampleEnv p.ty s) ∧
    bindFunctionRequests exampleEnv F = [] ∧ bindFunctionRequests exampleEnv G = [s] :=
  ⟨exampleMethod c!"f" false (.basic 0) [⟨c!"p", .sugar 7 (.ptr (.record 0)), false⟩], exampleMethod c!"f" false (.sugar 7 (.ptr (.record 0))) [],
   typeNameOfRecord exampleEnv 0, by decide +kernel,
   ⟨_, List.mem_cons_self, .cls (.sugar (.ptr .refl)) (.inl rfl) (by
      have : answer (skipClass exampleEnv 0) = false := by decide +kernel
      exact answer_false.1 this)⟩, by decide +kernel, by decide +kernel⟩

/-- C57 fails for fields: a class with a field of class type is bound with the field, but requests nothing. -/
theorem C57_field_false : ∃ (E : Env) (f : Field) (s : Str), E.Wellfounded ∧ Item.field 0 f ∈ classItems E 0 ∧ Requestable E f.ty s ∧
    (classOutput E 0).requests = [] := by
  refine ⟨{ exampleEnv with
    cls := fun i => if i = 0 then { exampleRecord with members := [.field ⟨c!"b", c!"A::b", .record 1, .pub, false⟩] }
      else { exampleRecord with name := c!"B", qname := c!"B" }
    tyName := fun _ => c!"B" }, ⟨c!"b", c!"A::b", .record 1, .pub, false⟩, c!"B", ?_, ?_, ?_, ?_⟩
  · refine ⟨?_, ?_, ?_⟩
    · intro i b hb; by_cases h : i = 0 <;> simp [h, exampleRecord] at hb
    · intro i t ht; by_cases h : i = 0 <;> simp [h, exampleRecord, Record.typeArgs, Record.functionArgTypes] at ht
    · intro i j hj; by_cases h : i = 0 <;> simp [h, exampleRecord, Env.nestedClasses] at hj
  · decide +kernel
  · exact Requestable.cls (E := { exampleEnv with cls := _, tyName := _ }) (j := 1) .refl (.inl rfl) (answer_false.1 (by decide +kernel))
  · decide +kernel

/-- The hypotheses of the theorems of C57 are met: `A & f(const A *)` in a program with the class `A`. -/
example : Requestable exampleEnv (.lref (.record 0)) c!"A" ∧ Unhidden (.ptr (.const (.record 0))) ∧
    bindFunctionRequests exampleEnv (exampleMethod c!"f" false (.lref (.record 0)) [⟨c!"a", .ptr (.const (.record 0)), false⟩]) = [c!"A", c!"A"] :=
  ⟨.cls (j := 0) (.lref .refl) (.inl rfl) (answer_false.1 (by decide +kernel)),
   .ptr (.const (.leaf (by intro u h; cases h) (by intro u h; cases h) (by intro u h; cases h))), by decide +kernel⟩

end Binder
