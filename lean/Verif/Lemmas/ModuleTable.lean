import Verif.Lemmas.ImportModule

/-!
# The table of modules of a run
-/

namespace Binder

open Cxx Spec

theorem join_no_colons (xs : List Str) (h : ∀ x ∈ xs, IsComponent x) : ¬ c!"::" <+: joinNs xs := by
  rintro ⟨t, e⟩
  match xs with
  | [] => cases e
  | [x] =>
    have := (h x (by simp)).2
    rw [show joinNs [x] = x from rfl] at e
    rw [← e] at this
    simp at this
  | x :: y :: zs =>
    obtain ⟨h1, h2⟩ := h x (by simp)
    rw [joinNs] at e
    cases x with
    | nil => exact h1 rfl
    | cons a x =>
      simp only [List.cons_append] at e
      injection e with e _
      rw [← e] at h2
      simp at h2

theorem joinNs_eq_nil {xs : List Str} (h : ∀ x ∈ xs, IsComponent x) : joinNs xs = [] ↔ xs = [] := by
  cases xs with
  | nil => exact ⟨fun _ => rfl, fun _ => rfl⟩
  | cons x xs =>
    refine ⟨fun e => ?_, fun e => by cases e⟩
    have hx := (h x List.mem_cons_self).1
    cases xs with
    | nil => exact absurd e hx
    | cons y ys =>
      rw [joinNs] at e
      exact absurd (List.append_eq_nil_iff.1 (List.append_eq_nil_iff.1 e).1).1 hx

/-- The table of modules of a finished run. -/
theorem RunDone.table {U : TransUnit} {o : Opts} {fs fs' fs1 fs2 : FS} {st : BindState} {bs : List SortItem} {files : List OutFile}
    (h : RunDone U o fs fs' st bs files fs1 fs2) (hcol : ∀ v, Reached U v → ¬ c!"::" <+: namespaceOf U.E v) :
    ModuleTable U (subModules (allNestedNamespaces bs)) := by
  constructor
  · intro x hx
    obtain ⟨n, hn, rfl⟩ := List.mem_map.1 hx
    obtain ⟨b, hb, hcode, ha⟩ := mem_allNested.1 (List.mem_filter.1 hn).1
    have hr := h.reached hb hcode
    rw [show b.decl.ns = namespaceOf U.E (Binder.visitOf U b) by rw [(h.visitOf hb).2.1, decl_ns]] at ha
    refine ⟨_, hr, ?_⟩
    simp only [base_last_full (not_colons_of_prefix (ancestors_prefix ha) (hcol _ hr))]
    exact ancestors_boundary ha
  · intro v cs hv hc a c b e
    obtain ⟨x, hx, ex⟩ := h.item_of hv.considered
    have hvx := h.visitOf hx
    have e' : Binder.visitOf U x = v := considered_inj hvx.1 hv.considered (hvx.2.1.symm.trans ex)
    rw [e'] at hvx
    have hcomp : ∀ y ∈ a ++ [c], IsComponent y := by
      intro y hy
      refine hc.2 y ?_
      rw [e]
      rcases List.mem_append.1 hy with hy | hy
      · exact List.mem_append_left _ hy
      · rw [List.mem_singleton.1 hy]; simp
    have hmem : joinNs (a ++ [c]) ∈ allNestedNamespaces bs := by
      refine mem_allNested.2 ⟨x, hx, ?_, ?_⟩
      · rw [hvx.2.2.1 hv]; exact bindingOf_ne_nil hv
      · rw [show x.decl.ns = joinNs cs by rw [ex, decl_ns]; exact hc.1, ancestors_join _ cs hc.2 (Nat.le_refl _)]
        refine ⟨a.length + 1, by omega, by rw [e]; simp, ?_⟩
        rw [e, List.take_append, List.take_of_length_le (by omega)]
        simp [show a.length + 1 - a.length = 1 by omega]
    have hne : joinNs (a ++ [c]) ≠ [] := by rw [ne_eq, joinNs_eq_nil hcomp]; simp
    have hb : baseNamespace (joinNs (a ++ [c])) = joinNs a := base_join (hcomp c (by simp)).2
    have hl : lastNamespace (joinNs (a ++ [c])) = c := by
      have := base_last_full (join_no_colons _ hcomp)
      rw [hb] at this
      generalize lastNamespace (joinNs (a ++ [c])) = l at this
      rw [joinNs_concat] at this
      have ha : joinNs a = [] ↔ a = [] := joinNs_eq_nil (fun y hy => hcomp y (by simp [hy]))
      by_cases h0 : a = []
      · rw [if_pos (ha.2 h0), if_pos h0] at this; exact this
      · rw [if_neg (fun h => h0 (ha.1 h)), if_neg h0] at this; exact List.append_cancel_left this
    exact List.mem_map.2 ⟨joinNs (a ++ [c]), List.mem_filter.2 ⟨hmem, by simpa using hne⟩, by rw [hb, hl]⟩

end Binder
