import Verif.Lemmas.Spellable
import Verif.Lemmas.LexFunction

/-!
# Names after `simplify_std_class_name`, as C++ text
-/

namespace Binder

open Cxx Spec

/-- A character of the fixed texts of `simplify_std_class_name`. -/
def calm (c : Char) : Bool := !special.contains c && !isBr c

theorem calm_iff {c : Char} : calm c = true ↔ c ∉ special ∧ isBr c = false := by simp [calm]

theorem regexMap_calm {p : List Pat × List Sub} (hp : p ∈ regexMap) : ∀ l, Sub.lit l ∈ p.2 → ∀ c ∈ l, calm c = true := by
  have key : ∀ p ∈ regexMap, ∀ l ∈ subTexts p.2, ∀ c ∈ l, calm c = true := by decide +kernel
  exact fun l hl => key p hp l (List.mem_filterMap.2 ⟨_, hl, rfl⟩)

theorem mem_subst {p : List Pat × List Sub} (hp : p ∈ regexMap) {s : Str} {c : Char} (h : c ∈ subst p s) : c ∈ s ∨ calm c = true := by
  unfold subst at h
  split at h
  · exact .inl h
  · rename_i before gs after hm
    obtain ⟨w, hw, hf, _⟩ := findMatch_some hm
    rcases List.mem_append.1 h with hc | hc
    · rcases List.mem_append.1 hc with hc | hc
      · exact .inl (by rw [hw]; simp [hc])
      · unfold expand at hc
        obtain ⟨x, hx, hc⟩ := List.mem_flatMap.1 hc
        cases x with
        | lit l => exact .inr (regexMap_calm hp l hx c hc)
        | ref n =>
          have hg : c ∈ gs.getD (n - 1) [] := hc
          rw [List.getD_eq_getElem?_getD] at hg
          cases hgn : gs[n - 1]? with
          | none => rw [hgn] at hg; cases hg
          | some g =>
            rw [hgn] at hg
            rcases fits_chars hf g (List.mem_of_getElem? hgn) c hg with ⟨_, h0, _⟩ | hcw
            · cases h0
            · exact .inl (by rw [hw]; simp [hcw])
    · exact .inl (by rw [hw]; simp [hc])

/-- The characters of a simplified name are those of the name, or harmless. -/
theorem mem_simplifyStd {s : Str} {c : Char} (h : c ∈ simplifyStd s) : c ∈ s ∨ calm c = true := by
  unfold simplifyStd simplifyStdF at h
  cases hl : stdTypedefMap.lookup s with
  | some r =>
    have key : ∀ p ∈ stdTypedefMap, ∀ c ∈ p.2, calm c = true := by decide +kernel
    obtain ⟨a, b, e, _⟩ := List.lookup_eq_some_iff.1 hl
    rw [hl] at h
    exact .inr (key (s, r) (by rw [e]; simp) c h)
  | none =>
    obtain ⟨r, hr⟩ := simplifyLoopF_some (s.length + 2) s 0 (Nat.le_refl _)
    rw [hl] at h
    simp only [hr] at h
    by_cases hs : s = []
    · subst hs
      have : r = [] := by simpa [simplifyLoopF] using hr.symm
      subst this; cases h
    · exact (simplifyLoopF_end (fun t => ∀ c ∈ t, c ∈ s ∨ calm c = true)
        (fun p hp t ht c hc => (mem_subst hp hc).elim (ht c) .inr) hr (fun c hc => .inl hc) (fun h0 => absurd (List.length_eq_zero_iff.1 h0) hs)).1 c h

/-- None of the special characters, and no brackets. -/
def Calm (s : Str) : Prop := ∀ c ∈ s, calm c = true

theorem Calm.plain {s : Str} (h : Calm s) : LexPlain s := by
  refine plain_congr plain_nil (fun c hc => (calm_iff.1 (h c hc)).1) ?_
  rw [List.filter_nil, List.filter_eq_nil_iff]
  intro c hc
  simp [(calm_iff.1 (h c hc)).2]

theorem Calm.append {s t : Str} (hs : Calm s) (ht : Calm t) : Calm (s ++ t) := by
  intro c hc
  rcases List.mem_append.1 hc with h | h
  · exact hs c h
  · exact ht c h

theorem calm_applyNameMap {s : Str} (h : Calm s) : Calm (applyNameMap s) := by
  have key : ∀ p ∈ nameMap, ∀ c ∈ p.2, calm c = true := by decide +kernel
  unfold applyNameMap
  generalize nameMap = l at key
  induction l generalizing s with
  | nil => exact h
  | cons p l ih =>
    rw [List.foldl_cons]
    refine ih (fun c hc => ?_) (fun q hq => key q (by simp [hq]))
    rcases mem_replaceGo hc with hc | hc
    · exact h c hc
    · exact key p (by simp) c hc

/-- A name without brackets stays plain under `standard_name`. -/
theorem Calm.stdName {E : Env} (hs : E.simplify = simplifyStd) {s : Str} (h : Calm s) : LexPlain (stdName E s) := by
  unfold Binder.stdName standardName
  refine LexPlain.fixBool ?_
  have h0 := calm_applyNameMap h
  split
  · refine Calm.plain (Calm.append (by unfold Calm; decide) ?_)
    intro c hc
    rw [hs] at hc
    exact (mem_simplifyStd hc).elim (fun h => h0 c (List.mem_of_mem_drop h)) id
  · exact h0.plain

end Binder
