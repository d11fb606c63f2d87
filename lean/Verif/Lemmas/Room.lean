import Verif.Spec.Contradiction
import Verif.Props.Generate
import Verif.Lemmas.Run

/-!
# Writing files where there is room
-/

namespace Binder

open Spec

theorem terminated_base {name : Str} (h : name ≠ []) (hl : name.getLast? ≠ some '/') :
    ∃ dirs base, name = terminated '/' dirs ++ base ∧ (∀ d ∈ dirs, '/' ∉ d) ∧ '/' ∉ base ∧ base ≠ [] := by
  induction name with
  | nil => exact absurd rfl h
  | cons x xs ih =>
    cases xs with
    | nil =>
      refine ⟨[], [x], rfl, by simp, ?_, by simp⟩
      intro hm
      simp only [List.mem_singleton] at hm
      exact hl (by simp [← hm])
    | cons y ys =>
      obtain ⟨dirs, base, e, h1, h2, h3⟩ := ih (by simp) (by simpa using hl)
      by_cases hx : x = '/'
      · subst hx
        exact ⟨[] :: dirs, base, by rw [e]; simp [terminated], by simpa using h1, h2, h3⟩
      · cases dirs with
        | nil =>
          exact ⟨[], x :: base, by rw [e]; simp [terminated], by simp, by simp [h2, Ne.symm hx], by simp⟩
        | cons d ds =>
          refine ⟨(x :: d) :: ds, base, by rw [e]; simp [terminated], ?_, h2, h3⟩
          intro d' hd'
          rcases List.mem_cons.1 hd' with rfl | hd'
          · simpa [Ne.symm hx] using h1 d (by simp)
          · exact h1 d' (by simp [hd'])

theorem dirChain_split {path d : Str} (h : d ∈ dirChain path) : path = d ∨ ∃ r, path = d ++ c!"/" ++ r := by
  unfold dirChain at h
  rcases List.mem_append.1 h with h | h
  · obtain ⟨k, hk, rfl⟩ := List.mem_map.1 h
    have := (List.mem_filter.1 hk).2
    simp only [Bool.and_eq_true, bne_iff_ne, ne_eq, beq_iff_eq] at this
    obtain ⟨hlt, hget⟩ := List.getElem?_eq_some_iff.1 this.2
    refine .inr ⟨path.drop (k + 1), ?_⟩
    rw [List.append_assoc, List.singleton_append, ← hget, List.getElem_cons_drop, List.take_append_drop]
  · exact .inl (List.mem_singleton.1 h).symm

theorem sourceDir_split {pre name d : Str} (hn : name ≠ []) (hl : name.getLast? ≠ some '/') (h : d ∈ dirChain (sourceDir pre name)) :
    ∃ r, pre ++ c!"/" ++ name = d ++ c!"/" ++ r := by
  obtain ⟨dirs, base, e, h1, h2, h3⟩ := terminated_base hn hl
  have := C20_directory pre dirs base h1 h2 h3
  rw [← e] at this
  rw [← this]
  rcases dirChain_split h with e | ⟨r, e⟩
  · exact ⟨base, by rw [e]⟩
  · exact ⟨r ++ c!"/" ++ base, by rw [e]; simp⟩

theorem sourceDir_pre (pre name : Str) : ∃ r, sourceDir pre name = pre ++ r := by
  unfold sourceDir
  generalize (split name c!"/").dropLast = dirs
  induction dirs generalizing pre with
  | nil => exact ⟨[], by simp⟩
  | cons d ds ih =>
    obtain ⟨r, e⟩ := ih (pre ++ (c!"/" ++ d))
    exact ⟨c!"/" ++ d ++ r, by rw [List.foldl_cons, e]; simp⟩

theorem sourceDir_parent {pre name : Str} (hn : name ≠ []) (hl : name.getLast? ≠ some '/') : parentDir (pre ++ c!"/" ++ name) = sourceDir pre name := by
  obtain ⟨dirs, base, e, h1, h2, h3⟩ := terminated_base hn hl
  have := C20_directory pre dirs base h1 h2 h3
  rw [← e] at this
  rw [← this, parentDir_base h2]

/-- A `.cpp` name. -/
def CppName (name : Str) : Prop := ∃ stem, name = stem ++ c!".cpp"

theorem CppName.ne {name : Str} (h : CppName name) : name ≠ [] ∧ name.getLast? ≠ some '/' := by
  obtain ⟨stem, rfl⟩ := h
  refine ⟨by simp, ?_⟩
  rw [List.getLast?_append]; simp

theorem update_blocked {fs : FS} {pre name code : Str} (hpre : pre ≠ []) (hc : CppName name) (h : updateSourceFile fs pre name code = none) : Blocked fs pre name := by
  unfold updateSourceFile at h
  split at h
  · rename_i hm
    apply Classical.byContradiction
    intro hb
    obtain ⟨fs', h'⟩ := mkdirP_ok (fs := fs) (path := sourceDir pre name) (by
        obtain ⟨r, e⟩ := sourceDir_pre pre name
        rw [e]; simp [hpre]) (by
      intro d hd
      obtain ⟨r, hr⟩ := sourceDir_split hc.ne.1 hc.ne.2 hd
      cases hf : fs.files d with
      | none => rfl
      | some t => exact absurd (.inl ⟨d, r, hr, by rw [hf]; rfl⟩) hb)
    rw [hm] at h'; cases h'
  · rename_i fs1 hm
    obtain ⟨h1, h2, h3, h4, _⟩ := mkdirP_some hm
    simp only at h
    split at h
    · unfold writeFile at h
      split at h
      · rename_i hd
        have hpar : fs1.dirs (parentDir (pre ++ c!"/" ++ name)) = true := by
          rw [sourceDir_parent hc.ne.1 hc.ne.2]
          exact (h3 _).2 (.inr (by simp [dirChain]))
        rw [hpar, Bool.not_true, Bool.or_false] at hd
        rcases (h3 _).1 hd with hd | hd
        · exact .inr hd
        · obtain ⟨r, hr⟩ := sourceDir_split hc.ne.1 hc.ne.2 hd
          have := congrArg List.length hr
          simp only [List.length_append, List.length_cons, List.length_nil] at this
          omega
      · cases h
    · cases h

/-- Names of which none is a directory of another one. -/
structure NamesApart (P : Str → Prop) : Prop where
  cpp : ∀ a, P a → CppName a
  apart : ∀ a b r, P a → P b → b ≠ a ++ c!"/" ++ r

/-- There is room for all these names. -/
def Room (P : Str → Prop) (fs : FS) (pre : Str) : Prop := pre ≠ [] ∧ ∀ name, P name → ¬ Blocked fs pre name

theorem Room.update {P : Str → Prop} (hP : NamesApart P) {fs fs' : FS} {pre name code : Str} (hn : P name) (hr : Room P fs pre)
    (h : updateSourceFile fs pre name code = some fs') : Room P fs' pre := by
  have hU := updateSourceFile_some h
  have hc := (hP.cpp name hn).ne
  refine ⟨hr.1, ?_⟩
  replace hr := hr.2
  intro b hb hB
  rcases hB with ⟨d, r, e, hd⟩ | hd
  · by_cases hx : d = pre ++ c!"/" ++ name
    · subst hx
      apply hP.apart name b r hn hb
      have : pre ++ c!"/" ++ b = pre ++ c!"/" ++ (name ++ c!"/" ++ r) := by rw [e]; simp
      exact List.append_cancel_left this
    · rw [hU.frame d hx] at hd
      exact hr b hb (.inl ⟨d, r, e, hd⟩)
  · rcases (hU.dirs _).1 hd with hd | hd
    · exact hr b hb (.inr hd)
    · obtain ⟨r, e⟩ := sourceDir_split hc.1 hc.2 hd
      apply hP.apart b name r hb hn
      have : pre ++ c!"/" ++ name = pre ++ c!"/" ++ (b ++ c!"/" ++ r) := by rw [e]; simp
      exact List.append_cancel_left this

theorem Room.write {P : Str → Prop} (hP : NamesApart P) {fs fs' : FS} {pre name code : Str} (hn : P name) (hr : Room P fs pre)
    (h : writeFile fs (pre ++ c!"/" ++ name) code = some fs') : Room P fs' pre := by
  have e0 := writeFile_some h
  refine ⟨hr.1, ?_⟩
  replace hr := hr.2
  intro b hb hB
  rcases hB with ⟨d, r, e, hd⟩ | hd
  · by_cases hx : d = pre ++ c!"/" ++ name
    · subst hx
      apply hP.apart name b r hn hb
      have : pre ++ c!"/" ++ b = pre ++ c!"/" ++ (name ++ c!"/" ++ r) := by rw [e]; simp
      exact List.append_cancel_left this
    · rw [e0] at hd
      simp only [if_neg hx] at hd
      exact hr b hb (.inl ⟨d, r, e, hd⟩)
  · rw [(writeFile_dirs h).1] at hd
    exact hr b hb (.inr hd)

theorem Room.updateUntil {P : Str → Prop} (hP : NamesApart P) {pre : Str} : ∀ {fs : FS} {l : List (Str × Str)}, (∀ p ∈ l, P p.1) → Room P fs pre →
    ∃ fs', updateUntil pre fs l = .inr fs'
  | fs, [], _, _ => ⟨fs, rfl⟩
  | fs, (name, code) :: l, hl, hr => by
    rw [Binder.updateUntil]
    cases h : updateSourceFile fs pre name code with
    | none => exact absurd (update_blocked hr.1 (hP.cpp name (hl _ List.mem_cons_self)) h) (hr.2 name (hl _ List.mem_cons_self))
    | some fs1 => exact Room.updateUntil hP (fun p hp => hl p (List.mem_cons_of_mem _ hp)) (Room.update hP (hl _ List.mem_cons_self) hr h)

end Binder
