import Verif.Spec.Wishes
import Verif.Lemmas.CommentRun
import Verif.Lemmas.ConfigSame

/-! Wishes: the queries of the configuration and of the generator. -/

namespace Binder

open Spec Cxx

/-- The environment with other wishes. -/
def wished (E : Env) (w : Wishes) : Env := { E with cfg := withWishes E.cfg w }

section

variable (E : Env) (w : Wishes)

theorem wish_stdName : stdName (wished E w) = stdName E := rfl
theorem wish_cls : (wished E w).cls = E.cls := rfl
theorem wish_nsOf : nsOf (wished E w) = nsOf E := rfl
theorem wish_classQualifiedName : classQualifiedName (wished E w) = classQualifiedName E := rfl
theorem wish_functionQualifiedName : functionQualifiedName (wished E w) = functionQualifiedName E := rfl
theorem wish_builtinDecl : builtinDecl (wished E w) = builtinDecl E := rfl
theorem wish_bannedDecl : bannedDecl (wished E w) = bannedDecl E := rfl
theorem wish_isConstOverload : isConstOverload (wished E w) = isConstOverload E := rfl

theorem wish_tyBindableWith (r : Nat → Bool) : tyBindableWith (wished E w) r = tyBindableWith E r := by
  funext t
  fun_induction tyBindableWith E r t <;> simp_all [tyBindableWith, tyHeadOk, refusedPointee, refusedReferent, wish_stdName] <;> rfl

theorem wish_classBindableF (n : Nat) : classBindableF (wished E w) n = classBindableF E n := by
  induction n with
  | zero => rfl
  | succ n ih => funext i; simp only [classBindableF, wish_tyBindableWith, ih]; rfl

theorem wish_classBindable : classBindable (wished E w) = classBindable E := by
  funext i; exact congrFun (wish_classBindableF E w _) i

theorem wish_tyBindable : tyBindable (wished E w) = tyBindable E := by
  funext t; rw [tyBindable, tyBindable, wish_classBindable, wish_tyBindableWith]

theorem wish_functionBindable : functionBindable (wished E w) = functionBindable E := by
  funext F; simp only [functionBindable, wish_tyBindable]; rfl

theorem wish_fieldBindable : fieldBindable (wished E w) = fieldBindable E := by
  funext f; simp only [fieldBindable, wish_tyBindable]

end

/-! ## The configuration -/

theorem skipNs_false {c : Config} {ns : Str} : namespaceSkippingRequested c ns = .ok false ↔
    ∀ s ∈ c.namespacesToSkip, s ≠ [] → s <+: ns → ∃ b ∈ c.namespacesToBind, b <+: ns ∧ s.length < b.length := by
  have hb := scanPlain_spec ns c.namespacesToBind
  have hs := scanPlain_spec ns c.namespacesToSkip
  unfold namespaceSkippingRequested
  revert hb hs
  generalize scanPlain ns c.namespacesToBind = p
  generalize scanPlain ns c.namespacesToSkip = q
  obtain ⟨b, bf⟩ := p
  obtain ⟨s, sf⟩ := q
  rintro ⟨hb, hbf⟩ ⟨hs, hsf⟩
  dsimp only at *
  rw [scanInv_matched hb] at hbf
  rw [scanInv_matched hs] at hsf
  have hmax : ∀ x ∈ c.namespacesToSkip, x <+: ns → x.length ≤ s.length := by
    intro x hx hp
    rcases hs with ⟨h1, h2⟩ | ⟨_, _, _, h⟩
    · by_cases h0 : x = []
      · rw [h0]; exact Nat.zero_le _
      · exact absurd ⟨x, hx, h0, hp⟩ h2
    · exact h x hx hp
  have hbmax : ∀ x ∈ c.namespacesToBind, x <+: ns → x.length ≤ b.length := by
    intro x hx hp
    rcases hb with ⟨h1, h2⟩ | ⟨_, _, _, h⟩
    · by_cases h0 : x = []
      · rw [h0]; exact Nat.zero_le _
      · exact absurd ⟨x, hx, h0, hp⟩ h2
    · exact h x hx hp
  by_cases h0 : s = []
  · have e : sf = false := by cases sf <;> simp_all
    subst h0
    have h1 : ∀ x ∈ c.namespacesToSkip, x ≠ [] → ¬ x <+: ns := fun x hx h0 hp =>
      h0 (List.length_eq_zero_iff.1 (Nat.le_zero.1 (hmax x hx hp)))
    constructor
    · intro _ x hx h0 hp; exact absurd hp (h1 x hx h0)
    · intro _; subst e; cases bf <;> simp
  · have e : sf = true := hsf.2 h0
    obtain ⟨hs1, hs2⟩ : s ∈ c.namespacesToSkip ∧ s <+: ns := by
      rcases hs with ⟨h1, _⟩ | ⟨_, h1, h2, _⟩
      · exact absurd h1 h0
      · exact ⟨h1, h2⟩
    have key : (∀ s ∈ c.namespacesToSkip, s ≠ [] → s <+: ns → ∃ b ∈ c.namespacesToBind, b <+: ns ∧ s.length < b.length) ↔ b.length > s.length := by
      constructor
      · intro h
        obtain ⟨x, hx, hp, hl⟩ := h s hs1 h0 hs2
        exact Nat.lt_of_lt_of_le hl (hbmax x hx hp)
      · intro hl x hx _ hp
        rcases hb with ⟨h1, _⟩ | ⟨_, h1, h2, _⟩
        · rw [h1] at hl; exact absurd hl (Nat.not_lt_zero _)
        · exact ⟨b, h1, h2, Nat.lt_of_le_of_lt (hmax x hx hp) hl⟩
    rw [key]
    by_cases h1 : b.length > s.length
    · simp [h1]
    · simp only [h1, if_false, iff_false]
      by_cases h2 : b.length < s.length
      · simp [h2]
      · have hb0 : bf = true := hbf.2 (by rintro rfl; exact h2 (List.length_pos_iff.2 h0))
        simp [h2, e, hb0]

theorem bindNs_true {c : Config} {ns : Str} : namespaceBindingRequested c ns = .ok true ↔
    (∃ b ∈ c.namespacesToBind, b ≠ [] ∧ b <+: ns ∧ ∀ s ∈ c.namespacesToSkip, s <+: ns → s.length < b.length) ∨
    ([] ∈ c.namespacesToBind ∧ ¬ Matched c.namespacesToSkip ns) := by
  rw [bindingRequested_true]
  constructor
  · rintro (⟨e, ⟨h1, h2, _⟩, h3, h4⟩ | ⟨_, h1, h2⟩)
    · exact .inl ⟨e, h1, h3, h2, h4⟩
    · exact .inr ⟨h2, h1⟩
  · have hb := (scanPlain_spec ns c.namespacesToBind).1
    rintro (⟨b, h1, h2, h3, h4⟩ | ⟨h1, h2⟩)
    · rcases hb with ⟨_, h⟩ | ⟨h0, hl⟩
      · exact absurd ⟨b, h1, h2, h3⟩ h
      · exact .inl ⟨_, hl, h0, fun s hs hp => Nat.lt_of_lt_of_le (h4 s hs hp) (hl.2.2 b h1 h3)⟩
    · rcases hb with ⟨_, h⟩ | ⟨h0, hl⟩
      · exact .inr ⟨h, h2, h1⟩
      · refine .inl ⟨_, hl, h0, fun s hs hp => ?_⟩
        by_cases e : s = []
        · rw [e]; exact List.length_pos_iff.2 h0
        · exact absurd ⟨s, hs, e, hp⟩ h2

section

variable {c : Config} {w : Wishes} (h : (wishesOf c).Le w)

include h

theorem wish_skipNs {ns : Str} (hs : namespaceSkippingRequested c ns = .ok false) : namespaceSkippingRequested (withWishes c w) ns = .ok false := by
  rw [skipNs_false] at hs ⊢
  intro s h1 h0 h2
  obtain ⟨b, h3, h4⟩ := hs s (h.skipNamespaces h1) h0 h2
  exact ⟨b, h.bindNamespaces h3, h4⟩

theorem wish_bindNs {ns : Str} (hs : namespaceBindingRequested c ns = .ok true) : namespaceBindingRequested (withWishes c w) ns = .ok true := by
  rw [bindNs_true] at hs ⊢
  rcases hs with ⟨b, h1, h2, h3, h4⟩ | ⟨h1, h2⟩
  · exact .inl ⟨b, h.bindNamespaces h1, h2, h3, fun s hs hp => h4 s (h.skipNamespaces hs) hp⟩
  · exact .inr ⟨h.bindNamespaces h1, fun ⟨s, h3, h4⟩ => h2 ⟨s, h.skipNamespaces h3, h4⟩⟩

theorem wish_bindCls {x : Str} (hs : classBindingRequested c x = true) : classBindingRequested (withWishes c w) x = true :=
  List.contains_iff_mem.2 (h.bindClasses (List.contains_iff_mem.1 hs))

theorem wish_skipCls {x : Str} (hs : classSkippingRequested c x = false) : classSkippingRequested (withWishes c w) x = false := by
  rw [← Bool.not_eq_true] at hs ⊢
  exact fun h' => hs (List.contains_iff_mem.2 (h.skipClasses (List.contains_iff_mem.1 h')))

theorem wish_bindFn {x : Str} (hs : functionBindingRequested c x = true) : functionBindingRequested (withWishes c w) x = true :=
  List.contains_iff_mem.2 (h.bindFunctions (List.contains_iff_mem.1 hs))

theorem wish_skipFn {x : Str} (hs : functionSkippingRequested c x = false) : functionSkippingRequested (withWishes c w) x = false := by
  rw [← Bool.not_eq_true] at hs ⊢
  exact fun h' => hs (List.contains_iff_mem.2 (h.skipFunctions (List.contains_iff_mem.1 h')))

theorem wish_bindEnm {x : Str} (hs : enumBindingRequested c x = true) : enumBindingRequested (withWishes c w) x = true :=
  List.contains_iff_mem.2 (h.bindEnums (List.contains_iff_mem.1 hs))

theorem wish_skipEnm {x : Str} (hs : enumSkippingRequested c x = false) : enumSkippingRequested (withWishes c w) x = false := by
  rw [← Bool.not_eq_true] at hs ⊢
  exact fun h' => hs (List.contains_iff_mem.2 (h.skipEnums (List.contains_iff_mem.1 h')))

theorem wish_skipField {x : Str} (hs : fieldSkippingRequested c x = false) : fieldSkippingRequested (withWishes c w) x = false := by
  rw [← Bool.not_eq_true] at hs ⊢
  exact fun h' => hs (List.contains_iff_mem.2 (h.skipFields (List.contains_iff_mem.1 h')))

end

/-! ## The queries of the generator -/

theorem anyM_false {f : Ty → Except QueryError Bool} {init : Bool} {l : List Ty} :
    anyM f init l = .ok false ↔ init = false ∧ ∀ t ∈ l, f t = .ok false := by
  induction l generalizing init with
  | nil => simp [anyM]
  | cons t ts ih =>
    rw [anyM]
    cases e : f t with
    | error x => simp [e]
    | ok b => simp only [ih, List.mem_cons, forall_eq_or_imp, e, Bool.or_eq_false_iff, Except.ok.injEq]; exact and_assoc

theorem anyM_true {f : Ty → Except QueryError Bool} {init : Bool} {l : List Ty} (h : init = true ∨ ∃ t ∈ l, f t = .ok true) :
    anyM f init l ≠ .ok false := by
  rw [Ne, anyM_false]
  rintro ⟨h1, h2⟩
  rcases h with rfl | ⟨t, ht, e⟩
  · cases h1
  · rw [h2 t ht] at e; cases e

theorem anyM_true_some {f : Ty → Except QueryError Bool} {init : Bool} {l : List Ty} (h : anyM f init l = .ok true) :
    init = true ∨ ∃ t ∈ l, f t = .ok true := by
  induction l generalizing init with
  | nil => rw [anyM] at h; injection h with h; exact .inl h
  | cons t ts ih =>
    rw [anyM] at h
    cases e : f t with
    | error x => rw [e] at h; cases h
    | ok b =>
      rw [e] at h
      rcases ih h with h | ⟨t', ht', h⟩
      · rcases Bool.or_eq_true_iff.1 h with h | h
        · exact .inl h
        · exact .inr ⟨t, by simp, by rw [e, h]⟩
      · exact .inr ⟨t', by simp [ht'], h⟩

/-- An answer that stays, or becomes an exception. -/
theorem ok_of_ne {a : Except QueryError Bool} (h1 : a ≠ .ok false) (h2 : ∀ e, a ≠ .error e) : a = .ok true := by
  match a with
  | .ok true => rfl
  | .ok false => exact absurd rfl h1
  | .error e => exact absurd rfl (h2 e)

theorem skipChain {s1 b1 s2 b2 : Bool} {r : Except QueryError Bool} :
    (if s1 then .ok true else if b1 then .ok false else if s2 then .ok true else if b2 then .ok false else r) = .ok false ↔
      s1 = false ∧ (b1 = true ∨ s2 = false ∧ (b2 = true ∨ r = .ok false)) := by
  cases s1 <;> cases b1 <;> cases s2 <;> cases b2 <;> simp

theorem bindChain {b x : Bool} {r : Except QueryError Bool} :
    (if b then .ok true else if x then .ok false else r) = .ok true ↔ b = true ∨ x = false ∧ r = .ok true := by
  cases b <;> cases x <;> simp

theorem okThen {a : Except QueryError Bool} {f : Bool → Except QueryError Bool} {x : Bool} :
    (match a with | .error e => Except.error e | .ok b => f b) = .ok x ↔ ∃ b, a = .ok b ∧ f b = .ok x := by
  cases a <;> simp

section

variable {E : Env} {w : Wishes} (h : (wishesOf E.cfg).Le w)

include h

theorem wish_skipClassF {n i : Nat} (hs : skipClassF E n i = .ok false) : skipClassF (wished E w) n i = .ok false := by
  induction n generalizing i with
  | zero => rfl
  | succ n ih =>
    rw [skipClassF] at hs ⊢
    obtain ⟨h1, h2⟩ := skipChain.1 hs
    refine skipChain.2 ⟨wish_skipCls h h1, h2.imp (wish_bindCls h) fun ⟨h3, h4⟩ => ⟨wish_skipCls h h3, h4.imp (wish_bindCls h) fun h5 => ?_⟩⟩
    obtain ⟨b, h5, h6⟩ := okThen.1 h5
    obtain ⟨rfl, h7⟩ := anyM_false.1 h6
    refine okThen.2 ⟨false, wish_skipNs h h5, anyM_false.2 ⟨rfl, fun t ht => ?_⟩⟩
    have := h7 t ht
    unfold viaClass at this ⊢
    cases e' : namedClass t with
    | none => rfl
    | some j => rw [e'] at this; exact ih this

theorem wish_skipClass {i : Nat} (hs : skipClass E i = .ok false) : skipClass (wished E w) i = .ok false := wish_skipClassF h hs

theorem wish_skipTy {t : Ty} (hs : skipTy E t = .ok false) : skipTy (wished E w) t = .ok false := by
  unfold skipTy viaClass at hs ⊢
  cases e' : namedClass t with
  | none => rfl
  | some j => rw [e'] at hs; exact wish_skipClass h hs

theorem wish_skipFunction {F : Func} (hs : skipFunction E F = .ok false) : skipFunction (wished E w) F = .ok false := by
  rw [skipFunction] at hs ⊢
  obtain ⟨h1, h2⟩ := skipChain.1 hs
  refine skipChain.2 ⟨wish_skipFn h h1, h2.imp (wish_bindFn h) fun ⟨h3, h4⟩ => ⟨wish_skipFn h h3, h4.imp (wish_bindFn h) fun h5 => ?_⟩⟩
  obtain ⟨b, h5, h6⟩ := okThen.1 h5
  obtain ⟨hb, h7⟩ := anyM_false.1 h6
  rw [Bool.or_eq_false_iff, Bool.or_eq_false_iff] at hb
  obtain ⟨⟨rfl, hb1⟩, hb2⟩ := hb
  refine okThen.2 ⟨false, wish_skipNs h h5, anyM_false.2 ⟨?_, fun t ht => wish_skipTy h (h7 t ht)⟩⟩
  rw [Bool.or_eq_false_iff, Bool.or_eq_false_iff]
  refine ⟨⟨rfl, wish_skipFn h hb1⟩, ?_⟩
  cases e' : F.method with
  | none => rfl
  | some m =>
    rw [e'] at hb2
    rw [Bool.and_eq_false_iff] at hb2
    exact Bool.and_eq_false_iff.2 (hb2.imp id fun h' => wish_skipFn h h')

theorem wish_skipEnum {e : EnumD} (hs : skipEnum E e = .ok false) : skipEnum (wished E w) e = .ok false := by
  have aux : ∀ {s b : Bool} {r : Except QueryError Bool}, (if s then .ok true else if b then .ok false else r) = .ok false ↔ s = false ∧ (b = true ∨ r = .ok false) := by
    intro s b r; cases s <;> cases b <;> simp
  rw [skipEnum] at hs ⊢
  obtain ⟨h1, h2⟩ := aux.1 hs
  exact aux.2 ⟨wish_skipEnm h h1, h2.imp (wish_bindEnm h) (wish_skipNs h)⟩

theorem wish_skipQuery {v : Visit} (hs : skipQuery E v = .ok false) : skipQuery (wished E w) v = .ok false := by
  cases v with
  | fn F => exact wish_skipFunction h hs
  | cls i => exact wish_skipClass h hs
  | enm i => exact wish_skipEnum h hs

theorem wish_bindClass {i : Nat} (hs : bindClass E i = .ok true) : bindClass (wished E w) i = .ok true := by
  rw [bindClass] at hs ⊢
  refine bindChain.2 ((bindChain.1 hs).imp ?_ fun ⟨h1, h2⟩ => ⟨h1, ?_⟩)
  · rw [Bool.or_eq_true, Bool.or_eq_true]
    exact Or.imp (wish_bindCls h) (wish_bindCls h)
  · obtain ⟨b, hb, h3⟩ := okThen.1 h2
    obtain ⟨s, hs, h4⟩ := okThen.1 h3
    injection h4 with h4
    cases b with
    | false => cases h4
    | true =>
      cases s with
      | true => cases h4
      | false =>
        refine okThen.2 ⟨true, wish_bindNs h hb, okThen.2 ⟨false, ?_, rfl⟩⟩
        exact anyM_false.2 ⟨rfl, fun t ht => wish_skipTy h ((anyM_false.1 hs).2 t ht)⟩

theorem wish_bindTy {t : Ty} (hs : bindTy E t = .ok true) : bindTy (wished E w) t = .ok true := by
  unfold bindTy viaClass at hs ⊢
  cases e' : namedClass t with
  | none => rw [e'] at hs; cases hs
  | some j => rw [e'] at hs; exact wish_bindClass h hs

theorem wish_bindFunction {F : Func} (hs : bindFunctionAsked E F = .ok true) (hn : ∀ e, bindFunctionAsked (wished E w) F ≠ .error e) :
    bindFunctionAsked (wished E w) F = .ok true := by
  have aux : ∀ {b : Bool} {r : Except QueryError Bool} {x : Bool}, (if b then .ok true else r) = .ok x ↔ (b = true ∧ x = true) ∨ b = false ∧ r = .ok x := by
    intro b r x; cases b <;> cases x <;> simp
  refine ok_of_ne ?_ hn
  rw [bindFunctionAsked] at hs ⊢
  intro hf
  rcases aux.1 hf with ⟨_, h'⟩ | ⟨h1, h2⟩
  · cases h'
  · have h1' := Bool.or_eq_false_iff.1 h1
    obtain ⟨b', hb', h2⟩ := okThen.1 h2
    rcases aux.1 hs with ⟨h3, _⟩ | ⟨_, h3⟩
    · rcases Bool.or_eq_true_iff.1 h3 with h3 | h3
      · exact absurd (wish_bindFn h h3) (by rw [show functionBindingRequested (withWishes E.cfg w) F.qname = false from h1'.1]; nofun)
      · exact absurd (wish_bindFn h h3) (by
          rw [show functionBindingRequested (withWishes E.cfg w) (functionQualifiedName E F true) = false from h1'.2]; nofun)
    · obtain ⟨b, hb, h3⟩ := okThen.1 h3
      refine anyM_true ((anyM_true_some h3).imp ?_ ?_) h2
      · rintro rfl
        have := (wish_bindNs h hb).symm.trans hb'
        injection this with this
        exact this.symm
      · rintro ⟨t, ht, h'⟩
        exact ⟨t, ht, wish_bindTy h h'⟩

theorem wish_bindEnum {e : EnumD} (hs : bindEnumAsked E e = .ok true) : bindEnumAsked (wished E w) e = .ok true := by
  have aux : ∀ {b : Bool} {r : Except QueryError Bool}, (if b then .ok true else r) = .ok true ↔ b = true ∨ r = .ok true := by
    intro b r; cases b <;> simp
  rw [bindEnumAsked] at hs ⊢
  exact aux.2 ((aux.1 hs).imp (wish_bindEnm h) (wish_bindNs h))

theorem wish_bindQuery {v : Visit} (hs : bindQuery E v = .ok true) (hn : ∀ e, bindQuery (wished E w) v ≠ .error e) :
    bindQuery (wished E w) v = .ok true := by
  cases v with
  | fn F => exact wish_bindFunction h hs hn
  | cls i => exact wish_bindClass h hs
  | enm i => exact wish_bindEnum h hs

end

end Binder
