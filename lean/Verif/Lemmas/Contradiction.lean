import Verif.Spec.Contradiction
import Verif.Lemmas.Wishes
import Verif.Lemmas.Run
import Verif.Props.Queries

/-!
# Queries that end with an exception
-/

namespace Binder

open Cxx Spec

/-- The query ends with an exception. -/
def Fails (x : Except QueryError Bool) : Prop := ∃ e, x = .error e

theorem fails_error {e : QueryError} : Fails (.error e) := ⟨e, rfl⟩
theorem fails_ok {b : Bool} : ¬ Fails (.ok b) := nofun

theorem throws_iff {x : Except QueryError Bool} : throws x = true ↔ Fails x := by
  cases x with
  | ok b => exact ⟨nofun, fun h => absurd h fails_ok⟩
  | error e => exact ⟨fun _ => fails_error, fun _ => rfl⟩

theorem anyM_fails {f : Ty → Except QueryError Bool} {init : Bool} {ts : List Ty} : Fails (anyM f init ts) ↔ ∃ t ∈ ts, Fails (f t) := by
  constructor
  · rintro ⟨e, h⟩
    obtain ⟨t, ht, he⟩ := anyM_error h
    exact ⟨t, ht, e, he⟩
  · rintro ⟨t, ht, hf⟩
    induction ts generalizing init with
    | nil => cases ht
    | cons u ts ih =>
      rw [anyM]
      cases hu : f u with
      | error e => exact ⟨e, rfl⟩
      | ok b =>
        rcases List.mem_cons.1 ht with rfl | ht
        · rw [hu] at hf; exact absurd hf fails_ok
        · exact ih ht

theorem viaClass_fails {f : Nat → Except QueryError Bool} {t : Ty} : Fails (viaClass f t) ↔ ∃ j, Reaches t j ∧ Fails (f j) := by
  unfold viaClass
  cases h : namedClass t with
  | none =>
    constructor
    · intro hf; exact absurd hf fails_ok
    · rintro ⟨j, hj, _⟩
      rw [(namedClass_iff t j).2 hj] at h; cases h
  | some k =>
    constructor
    · intro hf; exact ⟨k, (namedClass_iff t k).1 h, hf⟩
    · rintro ⟨j, hj, hf⟩
      rw [(namedClass_iff t j).2 hj] at h; cases h; exact hf

theorem skipNs_fails {c : Config} {ns : Str} : Fails (namespaceSkippingRequested c ns) ↔ Torn c ns :=
  ⟨fun ⟨_, h⟩ => (skippingRequested_error.1 h).2, fun h => ⟨_, skippingRequested_error.2 ⟨rfl, h⟩⟩⟩

theorem bindNs_fails {c : Config} {ns : Str} : Fails (namespaceBindingRequested c ns) ↔ Torn c ns :=
  ⟨fun ⟨_, h⟩ => (bindingRequested_error.1 h).2, fun h => ⟨_, bindingRequested_error.2 ⟨rfl, h⟩⟩⟩

theorem chain_fails {s1 b1 s2 b2 : Bool} {r : Except QueryError Bool} :
    Fails (if s1 = true then .ok true else if b1 = true then .ok false else if s2 = true then .ok true else if b2 = true then .ok false else r) ↔
      (s1 = false ∧ b1 = false ∧ s2 = false ∧ b2 = false) ∧ Fails r := by
  cases s1 <;> cases b1 <;> cases s2 <;> cases b2 <;> simp [fails_ok]

theorem then_fails {a x : Except QueryError Bool} {P : Prop} (h1 : ∀ e, a = .error e → x = .error e) (h2 : ∀ b, a = .ok b → (Fails x ↔ P)) :
    Fails x ↔ Fails a ∨ P := by
  cases a with
  | error e => rw [h1 e rfl]; exact ⟨fun _ => .inl fails_error, fun _ => fails_error⟩
  | ok b => exact ⟨fun h => .inr ((h2 b rfl).1 h), fun h => (h2 b rfl).2 (h.resolve_left fails_ok)⟩

theorem not_listed {es : List Str} {x : Str} : es.contains (despace x) = false ↔ ¬ Listed es x := by
  rw [← Bool.not_eq_true, List.contains_iff_mem, despace_eq]; exact Iff.rfl

variable {E : Env}

theorem skipClass_fails (hw : E.Wellfounded) (i : Nat) : Fails (skipClass E i) ↔ ClassUnlisted E i ∧
    (Torn E.cfg (nsOf E (E.cls i).qname (E.cls i).name) ∨ ∃ t, TypeArg (E.cls i) t ∧ ∃ j, Reaches t j ∧ Fails (skipClass E j)) := by
  rw [skipClass_eq E hw i, chain_fails,
    then_fails (a := namespaceSkippingRequested E.cfg (nsOf E (E.cls i).qname (E.cls i).name)) (fun e he => by rw [he])
      (fun b hb => by rw [hb]; exact anyM_fails), skipNs_fails]
  refine and_congr ?_ (or_congr Iff.rfl ?_)
  · simp only [ClassUnlisted, classSkippingRequested, classBindingRequested, not_listed, forall_eq_or_imp, forall_eq]
    exact ⟨fun ⟨a, b, c, d⟩ => ⟨⟨a, b⟩, c, d⟩, fun ⟨⟨a, b⟩, c, d⟩ => ⟨a, b, c, d⟩⟩
  · constructor
    · rintro ⟨t, ht, hf⟩; exact ⟨t, mem_typeArgs.1 ht, viaClass_fails.1 hf⟩
    · rintro ⟨t, ht, hf⟩; exact ⟨t, mem_typeArgs.2 ht, viaClass_fails.2 hf⟩

theorem skipClass_unclear (hw : E.Wellfounded) (i : Nat) : Fails (skipClass E i) ↔ UnclearClass E i := by
  constructor
  · suffices h : ∀ n i, E.argRank i < n → Fails (skipClass E i) → UnclearClass E i from h _ i (Nat.lt_succ_self _)
    intro n
    induction n with
    | zero => intro i h; exact absurd h (Nat.not_lt_zero _)
    | succ n ih =>
      intro i hi hf
      obtain ⟨h1, h2 | ⟨t, ht, j, hj, hf⟩⟩ := (skipClass_fails hw i).1 hf
      · exact .own h1 h2
      · have := hw.args i t (List.mem_append_left _ (mem_typeArgs.2 ht)) j (target_of_reaches hj)
        exact .arg h1 ht hj (ih j (by omega) hf)
  · intro h
    induction h with
    | own h1 h2 => exact (skipClass_fails hw _).2 ⟨h1, .inl h2⟩
    | arg h1 ht hj _ ih => exact (skipClass_fails hw _).2 ⟨h1, .inr ⟨_, ht, _, hj, ih⟩⟩

theorem types_fail {F : Func} {f : Nat → Except QueryError Bool} {b : Bool} :
    Fails (anyM (viaClass f) b (functionTypes F)) ↔ ∃ t, UsesType F t ∧ ∃ j, Reaches t j ∧ Fails (f j) := by
  rw [anyM_fails]
  constructor
  · rintro ⟨t, ht, hf⟩; exact ⟨t, mem_functionTypes.1 ht, viaClass_fails.1 hf⟩
  · rintro ⟨t, ht, hf⟩; exact ⟨t, mem_functionTypes.2 ht, viaClass_fails.2 hf⟩

theorem skipFunction_unclear (hw : E.Wellfounded) (F : Func) : Fails (skipFunction E F) ↔ UnclearFunction E F := by
  unfold skipFunction
  simp only
  rw [chain_fails, then_fails (a := namespaceSkippingRequested E.cfg (nsOf E F.qname F.name)) (fun e he => by rw [he])
    (fun b hb => by rw [hb]; exact types_fail), skipNs_fails]
  refine and_congr ?_ (or_congr Iff.rfl ?_)
  · simp only [functionSkippingRequested, functionBindingRequested, not_listed, forall_eq_or_imp, forall_eq]
    exact ⟨fun ⟨a, b, c, d⟩ => ⟨⟨a, b⟩, c, d⟩, fun ⟨⟨a, b⟩, c, d⟩ => ⟨a, b, c, d⟩⟩
  · simp only [skipClass_unclear hw]

theorem skipEnum_unclear (e : EnumD) : Fails (skipEnum E e) ↔ UnclearEnum E e := by
  unfold skipEnum UnclearEnum enumSkippingRequested enumBindingRequested
  rw [← skipNs_fails]
  by_cases h1 : stdName E e.qname ∈ E.cfg.enumsToSkip
  · simp [h1, fails_ok]
  · by_cases h2 : stdName E e.qname ∈ E.cfg.enumsToBind
    · simp [h1, h2, fails_ok]
    · simp [h1, h2]

theorem skipQuery_unclear (hw : E.Wellfounded) (v : Visit) : Fails (skipQuery E v) ↔ Unclear E v := by
  cases v with
  | fn F => exact skipFunction_unclear hw F
  | cls i => exact skipClass_unclear hw i
  | enm i => exact skipEnum_unclear _

/-! ## Agreeing wishes -/

theorem Spec.Agreeing.torn {c : Config} (h : Agreeing c) (ns : Str) : ¬ Torn c ns := by
  rintro ⟨e, he, h1, h2⟩
  exact h e h1.1 he h2.1

theorem Spec.Agreeing.unclear (h : Agreeing E.cfg) (i : Nat) : ¬ UnclearClass E i := by
  intro hc
  induction hc with
  | own _ h2 => exact h.torn _ h2
  | arg _ _ _ _ ih => exact ih

theorem ok_of_not_fails {x : Except QueryError Bool} (h : ¬ Fails x) : ∃ b, x = .ok b := by
  cases x with
  | ok b => exact ⟨b, rfl⟩
  | error e => exact absurd fails_error h

section
variable (h : Agreeing E.cfg) (hw : E.Wellfounded)
include h hw

theorem Spec.Agreeing.skipClass (i : Nat) : ¬ Fails (skipClass E i) := fun hf => h.unclear i ((skipClass_unclear hw i).1 hf)

theorem Spec.Agreeing.skipQuery (v : Visit) : ¬ Fails (skipQuery E v) := by
  rw [skipQuery_unclear hw]
  cases v with
  | fn F =>
    rintro ⟨_, hn | ⟨_, _, j, _, hj⟩⟩
    · exact h.torn _ hn
    · exact h.unclear j hj
  | cls i => exact h.unclear i
  | enm i => exact fun hu => h.torn _ hu.2.2

theorem Spec.Agreeing.bindClass (i : Nat) : ¬ Fails (bindClass E i) := by
  unfold Binder.bindClass
  simp only
  split
  · exact fails_ok
  · split
    · exact fails_ok
    · rw [then_fails (P := False) (a := namespaceBindingRequested E.cfg (nsOf E (E.cls i).qname (E.cls i).name)) (fun e he => by rw [he]), bindNs_fails]
      · rintro (ht | ht)
        · exact h.torn _ ht
        · exact ht
      · intro b hb
        rw [hb]
        simp only
        rw [then_fails (P := False) (a := anyM (skipTy E) false (E.cls i).typeArgs) (fun e he => by rw [he])
          (fun b hb => by rw [hb]; exact ⟨fun hf => fails_ok hf, False.elim⟩), anyM_fails]
        constructor
        · rintro (⟨t, _, hf⟩ | hf)
          · obtain ⟨j, _, hj⟩ := viaClass_fails.1 hf
            exact h.skipClass hw j hj
          · exact hf
        · exact False.elim

theorem Spec.Agreeing.bindQuery (v : Visit) : ¬ Fails (bindQuery E v) := by
  cases v with
  | fn F =>
    show ¬ Fails (bindFunctionAsked E F)
    unfold bindFunctionAsked
    split
    · exact fails_ok
    · rw [then_fails (a := namespaceBindingRequested E.cfg (nsOf E F.qname F.name)) (fun e he => by rw [he])
        (fun b hb => by rw [hb]; exact types_fail), bindNs_fails]
      rintro (ht | ⟨_, _, j, _, hj⟩)
      · exact h.torn _ ht
      · exact h.bindClass hw j hj
  | cls i => exact h.bindClass hw i
  | enm i =>
    show ¬ Fails (bindEnumAsked E _)
    unfold bindEnumAsked
    split
    · exact fails_ok
    · rw [bindNs_fails]; exact h.torn _

end

end Binder
