import Verif.Model.Queries
import Verif.Spec.Function
import Verif.Lemmas.Function

/-! Facts about the requests of the user. -/

namespace Binder

open Cxx Spec

theorem anyM_ok {f : Ty → Except QueryError Bool} {init : Bool} {ts : List Ty} {b : Bool} (h : anyM f init ts = .ok b) :
    (b = true ↔ init = true ∨ ∃ t ∈ ts, f t = .ok true) ∧ ∀ t ∈ ts, ∃ c, f t = .ok c := by
  induction ts generalizing init with
  | nil => simp only [anyM, Except.ok.injEq] at h; simp [h]
  | cons t ts ih =>
    rw [anyM] at h
    cases hf : f t with
    | error e => rw [hf] at h; exact absurd h (by simp)
    | ok c =>
      rw [hf] at h
      have := ih h
      constructor
      · rw [this.1]; simp only [Bool.or_eq_true, List.mem_cons, exists_eq_or_imp, hf, Except.ok.injEq]; exact or_assoc
      · intro u hu
        rcases List.mem_cons.1 hu with rfl | hu
        · exact ⟨c, hf⟩
        · exact this.2 u hu

theorem anyM_error {f : Ty → Except QueryError Bool} {init : Bool} {ts : List Ty} {e : QueryError} (h : anyM f init ts = .error e) :
    ∃ t ∈ ts, f t = .error e := by
  induction ts generalizing init with
  | nil => simp [anyM] at h
  | cons t ts ih =>
    rw [anyM] at h
    cases hf : f t with
    | error e' => rw [hf] at h; simp only [Except.error.injEq] at h; subst h; exact ⟨t, by simp, hf⟩
    | ok c =>
      rw [hf] at h
      obtain ⟨u, hu, h'⟩ := ih h
      exact ⟨u, by simp [hu], h'⟩

theorem anyM_congr {f g : Ty → Except QueryError Bool} {ts : List Ty} (h : ∀ t ∈ ts, f t = g t) (init : Bool) :
    anyM f init ts = anyM g init ts := by
  induction ts generalizing init with
  | nil => rfl
  | cons t ts ih =>
    rw [anyM, anyM, h t (by simp)]
    cases g t with
    | error e => rfl
    | ok c => exact ih (fun u hu => h u (by simp [hu])) _

theorem asRecord_named : ∀ (t : Ty) (i : Nat), t.asRecord = some i ↔ Named t i
  | .const t, i => by
    have := asRecord_named t i
    simp only [Ty.asRecord, Ty.head] at this ⊢
    rw [this]; exact ⟨.const, fun h => by cases h; assumption⟩
  | .sugar k t, i => by
    have := asRecord_named t i
    simp only [Ty.asRecord, Ty.head] at this ⊢
    rw [this]; exact ⟨.sugar, fun h => by cases h; assumption⟩
  | .record j, i => by
    simp only [Ty.asRecord, Ty.head, Option.some.injEq]
    exact ⟨by rintro rfl; exact .record, fun h => by cases h; rfl⟩
  | .basic _, i | .dep _, i | .ptr _, i | .lref _, i | .rref _, i | .arr _, i | .fn _ _, i | .enum _, i => by
    simp only [Ty.asRecord, Ty.head, reduceCtorEq, false_iff]; intro h; cases h

theorem namedClass_iff : ∀ (t : Ty) (i : Nat), namedClass t = some i ↔ Reaches t i
  | .const t, i => by
    rw [namedClass, namedClass_iff t i]
    refine ⟨.const, fun h => ?_⟩
    cases h with
    | named h => cases h; exact .named ‹_›
    | const h => exact h
  | .ptr t, i => by
    rw [namedClass, namedClass_iff t i]
    refine ⟨.ptr, fun h => ?_⟩
    cases h with
    | named h => cases h
    | ptr h => exact h
  | .lref t, i => by
    rw [namedClass, namedClass_iff t i]
    refine ⟨.lref, fun h => ?_⟩
    cases h with
    | named h => cases h
    | lref h => exact h
  | .rref t, i => by
    rw [namedClass, namedClass_iff t i]
    refine ⟨.rref, fun h => ?_⟩
    cases h with
    | named h => cases h
    | rref h => exact h
  | .basic _, i | .dep _, i | .record _, i | .sugar _ _, i | .arr _, i | .fn _ _, i | .enum _, i => by
    simp only [namedClass, asRecord_named]
    refine ⟨.named, fun h => ?_⟩
    cases h; assumption

theorem target_of_named {t : Ty} {i : Nat} (h : Named t i) : t.target = some i := by
  induction h with
  | record => rfl
  | const _ ih => exact ih
  | sugar _ ih => exact ih

theorem target_of_reaches {t : Ty} {i : Nat} (h : Reaches t i) : t.target = some i := by
  induction h with
  | named h => exact target_of_named h
  | const _ ih | ptr _ ih | lref _ ih | rref _ ih => exact ih

variable (E : Env)

/-- More fuel than the rank makes no difference. -/
theorem skipClassF_stable (hw : E.Wellfounded) : ∀ (n m i : Nat), E.argRank i < n → E.argRank i < m →
    skipClassF E n i = skipClassF E m i
  | 0, _, _, h, _ => absurd h (Nat.not_lt_zero _)
  | _ + 1, 0, _, _, h => absurd h (Nat.not_lt_zero _)
  | n + 1, m + 1, i, hn, hm => by
    unfold skipClassF
    have key : ∀ skip, anyM (viaClass (skipClassF E n)) skip (E.cls i).typeArgs = anyM (viaClass (skipClassF E m)) skip (E.cls i).typeArgs := by
      intro skip
      apply anyM_congr
      intro t ht
      unfold viaClass
      cases hj : namedClass t with
      | none => rfl
      | some j =>
        have := hw.args i t (List.mem_append_left _ ht) j (target_of_reaches ((namedClass_iff t j).1 hj))
        exact skipClassF_stable hw n m j (by omega) (by omega)
    simp only [key]

/-- The equation of `is_skipping_requested(CXXRecordDecl)` as the C++ code has it. -/
theorem skipClass_eq (hw : E.Wellfounded) (i : Nat) : skipClass E i =
    if classSkippingRequested E.cfg (classQualifiedName E (E.cls i)) then .ok true
    else if classBindingRequested E.cfg (classQualifiedName E (E.cls i)) then .ok false
    else if classSkippingRequested E.cfg (stdName E (E.cls i).qname) then .ok true
    else if classBindingRequested E.cfg (stdName E (E.cls i).qname) then .ok false
    else match namespaceSkippingRequested E.cfg (nsOf E (E.cls i).qname (E.cls i).name) with
      | .error e => .error e
      | .ok skip => anyM (skipTy E) skip (E.cls i).typeArgs := by
  unfold skipClass
  rw [skipClassF]
  have key : ∀ skip, anyM (viaClass (skipClassF E (E.argRank i))) skip (E.cls i).typeArgs =
      anyM (skipTy E) skip (E.cls i).typeArgs := by
    intro skip
    apply anyM_congr
    intro t ht
    unfold skipTy viaClass
    cases hj : namedClass t with
    | none => rfl
    | some j =>
      have := hw.args i t (List.mem_append_left _ ht) j (target_of_reaches ((namedClass_iff t j).1 hj))
      exact skipClassF_stable E hw _ _ j this (by omega)
  simp only [key]
  rfl

theorem type?_iff {a : TArg} {t : Ty} : a.type? = some t ↔ a.kind = .type t := by
  unfold TArg.type?
  split
  · rename_i h; rw [h]; simp
  · rename_i h; simp only [reduceCtorEq, false_iff]; exact h t

theorem mem_typeArgs {C : Record} {t : Ty} : t ∈ C.typeArgs ↔ TypeArg C t := by
  unfold Record.typeArgs TypeArg
  cases C.targs with
  | none => simp
  | some as => simp [type?_iff]

theorem mem_functionTypes {F : Func} {t : Ty} : t ∈ functionTypes F ↔ UsesType F t := by
  unfold functionTypes UsesType
  simp only [List.cons_append, List.mem_cons, List.mem_append, List.mem_map]
  refine or_congr Iff.rfl (or_congr ⟨fun ⟨p, hp, h⟩ => ⟨p, hp, h.symm⟩, fun ⟨p, hp, h⟩ => ⟨p, hp, h.symm⟩⟩ ?_)
  by_cases hn : F.templated = .nonTemplate
  · simp [hn]
  · rw [if_neg hn]
    cases F.targs with
    | none => simp
    | some as => simp [type?_iff, hn]

/-- A type counts as skipped exactly if it leads to a skipped class. -/
theorem skipTy_true {t : Ty} : skipTy E t = .ok true ↔ ∃ i, Reaches t i ∧ skipClass E i = .ok true := by
  unfold skipTy viaClass
  cases h : namedClass t with
  | none =>
    simp only [Except.ok.injEq, Bool.false_eq_true, false_iff]
    rintro ⟨i, hi, _⟩
    rw [(namedClass_iff t i).2 hi] at h; cases h
  | some j =>
    constructor
    · intro hs; exact ⟨j, (namedClass_iff t j).1 h, hs⟩
    · rintro ⟨i, hi, hs⟩
      rw [(namedClass_iff t i).2 hi] at h; cases h; exact hs

theorem bindTy_true {t : Ty} : bindTy E t = .ok true ↔ ∃ i, Reaches t i ∧ bindClass E i = .ok true := by
  unfold bindTy viaClass
  cases h : namedClass t with
  | none =>
    simp only [Except.ok.injEq, Bool.false_eq_true, false_iff]
    rintro ⟨i, hi, _⟩
    rw [(namedClass_iff t i).2 hi] at h; cases h
  | some j =>
    constructor
    · intro hs; exact ⟨j, (namedClass_iff t j).1 h, hs⟩
    · rintro ⟨i, hi, hs⟩
      rw [(namedClass_iff t i).2 hi] at h; cases h; exact hs

end Binder
