import Verif.Lemmas.Steps
import Verif.Lemmas.Room
import Verif.Props.Contradiction

/-!
# The operations of a run
-/

namespace Binder

open Spec

/-- The files that a run writes, with their texts. -/
def outsOf (c : Config) (o : Opts) (bs : List SortItem) (files : List OutFile) : List (Str × Str) :=
  (rootPath o, rootFileText c o (allNestedNamespaces bs) files) ::
  ((sourceFiles c o files).map (fun p => (o.pre ++ c!"/" ++ p.1, p.2)) ++
   if o.single then []
   else [(o.pre ++ c!"/" ++ o.root ++ c!".sources", sourcesText o files), (o.pre ++ c!"/" ++ o.root ++ c!".modules", modulesText (allNestedNamespaces bs))])

theorem touched_append (l r : List FileOp) : touched (l ++ r) = touched l ++ touched r := by
  induction l with
  | nil => rfl
  | cons a l ih => cases a <;> simp [touched, ih]

theorem touched_files (c : Config) (o : Opts) (files : List OutFile) :
    touched (files.flatMap (fileOps c o)) = (sourceFiles c o files).map (fun p => o.pre ++ c!"/" ++ p.1) := by
  unfold sourceFiles fileOps
  cases o.single with
  | true =>
    simp only [if_true, List.map_nil]
    induction files with
    | nil => rfl
    | cons f fs ih => simpa [touched] using ih
  | false =>
    simp only [Bool.false_eq_true, if_false]
    induction files with
    | nil => rfl
    | cons f fs ih => rw [List.flatMap_cons, touched_append, ih]; simp [touched]

theorem touched_run (c : Config) (o : Opts) (bs : List SortItem) (files : List OutFile) :
    touched (runOps c o bs files) = (outsOf c o bs files).map (·.1) := by
  unfold runOps outsOf
  simp only [touched, touched_append, touched_files, List.map_cons, List.map_append, List.map_map]
  congr 2
  unfold endOps
  cases o.single <;> simp [touched]

/-- Only the root module is open. -/
def rootOpen : Slot → Bool := fun s => if s = .root then true else false

theorem proper_files {c : Config} {o : Opts} {files : List OutFile} {r : List FileOp} (h : Proper rootOpen r) :
    Proper rootOpen (files.flatMap (fileOps c o) ++ r) := by
  induction files with
  | nil => exact h
  | cons f fs ih =>
    rw [List.flatMap_cons, List.append_assoc, fileOps]
    cases hs : o.single with
    | true => exact ⟨rfl, ih⟩
    | false => exact ⟨rfl, rfl, C20_texts_not_empty _ _ _, ih⟩

theorem proper_run (c : Config) (o : Opts) (bs : List SortItem) (files : List OutFile) : Proper (fun _ => false) (runOps c o bs files) := by
  unfold runOps
  refine ⟨rfl, rfl, ?_⟩
  show Proper rootOpen _
  apply proper_files
  unfold endOps
  cases o.single with
  | true =>
    refine ⟨rfl, rfl, rfl, ?_⟩
    intro s; cases s <;> rfl
  | false =>
    refine ⟨rfl, rfl, rfl, rfl, rfl, rfl, rfl, rfl, rfl, rfl, ?_⟩
    intro s; cases s <;> rfl

theorem restOf_root (c : Config) (o : Opts) (bs : List SortItem) (files : List OutFile) :
    restOf .root (files.flatMap (fileOps c o) ++ endOps c o (allNestedNamespaces bs) files) = rootFileText c o (allNestedNamespaces bs) files := by
  have key : ∀ r : List FileOp, restOf .root (files.flatMap (fileOps c o) ++ r) =
      (if o.single then files.flatMap (fun f => c!"// File: " ++ f.name ++ c!"\n" ++ f.text c o ++ c!"\n\n") else []) ++ restOf .root r := by
    intro r
    unfold fileOps
    cases o.single with
    | true =>
      simp only [if_true]
      induction files with
      | nil => rfl
      | cons f fs ih =>
        rw [List.flatMap_cons, List.append_assoc, List.singleton_append, List.flatMap_cons, List.append_assoc _ (List.flatMap _ fs), ← ih]
        simp [restOf]
    | false =>
      simp only [Bool.false_eq_true, if_false, List.nil_append]
      induction files with
      | nil => rfl
      | cons f fs ih =>
        rw [List.flatMap_cons, List.append_assoc, ← ih]
        simp [restOf]
  rw [key]
  unfold endOps rootFileText
  cases o.single with
  | true => simp [restOf]
  | false => simp [restOf]

theorem makes_append {x t : Str} {l r : List FileOp} (h : x ∉ touched l) (hm : Makes x t r) : Makes x t (l ++ r) := by
  induction l with
  | nil => exact hm
  | cons a l ih =>
    cases a with
    | openFile s n ck =>
      simp only [touched, List.mem_cons, not_or] at h
      exact .inr ⟨Ne.symm h.1, ih h.2⟩
    | refresh n code =>
      simp only [touched, List.mem_cons, not_or] at h
      exact .inr ⟨Ne.symm h.1, ih h.2⟩
    | put s t => exact ih h
    | close s => exact ih h
    | mkdir p => exact ih h
    | stop e => exact ih h

theorem makes_files {c : Config} {o : Opts} {files : List OutFile} {r : List FileOp} {x t : Str}
    (hnd : ((sourceFiles c o files).map (fun p => (o.pre ++ c!"/" ++ p.1))).Nodup)
    (h : (x, t) ∈ (sourceFiles c o files).map (fun p => (o.pre ++ c!"/" ++ p.1, p.2))) : Makes x t (files.flatMap (fileOps c o) ++ r) := by
  cases hs : o.single with
  | true => rw [sourceFiles, if_pos hs] at h; cases h
  | false =>
    have e : ∀ l : List OutFile, sourceFiles c o l = l.map fun f => (f.name, f.text c o) := fun l => by unfold sourceFiles; rw [hs]; rfl
    rw [e] at hnd h
    induction files with
    | nil => cases h
    | cons f fs ih =>
      rw [List.flatMap_cons, List.append_assoc]
      unfold fileOps
      rw [hs]
      simp only [Bool.false_eq_true, if_false, List.cons_append, List.nil_append]
      simp only [List.map_cons, List.nodup_cons] at hnd
      simp only [List.map_cons, List.mem_cons] at h
      show (_ ∧ _) ∨ (_ ∧ _)
      rcases h with h | h
      · injection h with h1 h2
        exact .inl ⟨h1.symm, h2.symm⟩
      · refine .inr ⟨?_, ?_⟩
        · intro e'
          obtain ⟨p, hp, e2⟩ := List.mem_map.1 h
          injection e2 with e2 _
          exact hnd.1 (List.mem_map.2 ⟨p, hp, by rw [e2, e']⟩)
        · have := ih hnd.2 h
          unfold fileOps at this
          simpa [hs] using this

theorem makes_run {c : Config} {o : Opts} {bs : List SortItem} {files : List OutFile} {x t : Str}
    (hnd : ((outsOf c o bs files).map (·.1)).Nodup) (h : (x, t) ∈ outsOf c o bs files) : Makes x t (runOps c o bs files) := by
  unfold runOps
  show (_ ∧ _) ∨ (_ ∧ _)
  unfold outsOf at hnd h
  rw [List.map_cons, List.nodup_cons, List.map_append, List.map_map] at hnd
  rcases List.mem_cons.1 h with h | h
  · injection h with h1 h2
    exact .inl ⟨h1.symm, by rw [restOf_root, h2]⟩
  · have hne : rootPath o ≠ x := by
      rintro rfl
      apply hnd.1
      rw [← List.map_map, ← List.map_append]
      exact List.mem_map.2 ⟨_, h, rfl⟩
    refine .inr ⟨hne, ?_⟩
    rcases List.mem_append.1 h with h | h
    · exact makes_files (by have := (List.nodup_append.1 hnd.2).1; exact this) h
    · apply makes_append
      · rw [touched_files]
        intro hm
        exact (List.nodup_append.1 hnd.2).2.2 x hm x (List.mem_map.2 ⟨_, h, rfl⟩) rfl
      · unfold endOps
        cases hs : o.single with
        | true => rw [hs, if_pos rfl] at h; cases h
        | false =>
          rw [hs] at h hnd
          simp only [Bool.false_eq_true, if_false, List.mem_cons, List.not_mem_nil, or_false] at h ⊢
          show (_ ∧ _) ∨ (_ ∧ ((_ ∧ _) ∨ (_ ∧ _)))
          have hsm : o.pre ++ c!"/" ++ o.root ++ c!".sources" ≠ o.pre ++ c!"/" ++ o.root ++ c!".modules" := by
            intro h; have := List.append_cancel_left h; revert this; decide
          rcases h with h | h
          · injection h with h1 h2
            exact .inl ⟨h1.symm, by rw [h2]; simp [restOf]⟩
          · injection h with h1 h2
            subst h1
            exact .inr ⟨hsm, .inl ⟨rfl, by rw [h2]; simp [restOf]⟩⟩

theorem ready_run {c : Config} {o : Opts} {bs : List SortItem} {files : List OutFile} {D : Str → Prop} (hr : D (parentDir (rootPath o)))
    (h : ∀ p ∈ sourceFiles c o files, sourceDir o.pre p.1 ≠ [] ∧ CppName p.1) : Ready D (runOps c o bs files) := by
  unfold runOps
  refine ⟨hr, ?_⟩
  have e : rootPath o = (o.pre ++ c!"/" ++ o.root) ++ c!".cpp" := by unfold rootPath; simp
  rw [e, parentDir_ext (by decide)] at hr
  have hend : ∀ D : Str → Prop, D (parentDir (o.pre ++ c!"/" ++ o.root)) → Ready D (endOps c o (allNestedNamespaces bs) files) := by
    intro D hr
    unfold endOps
    cases o.single with
    | true => trivial
    | false => exact ⟨by rw [parentDir_ext (by decide)]; exact hr, by rw [parentDir_ext (by decide)]; exact hr, trivial⟩
  generalize endOps c o (allNestedNamespaces bs) files = r at hend
  unfold fileOps
  cases hs : o.single with
  | true =>
    simp only [if_true]
    clear h
    induction files with
    | nil => exact hend D hr
    | cons f fs ih => exact ih
  | false =>
    simp only [Bool.false_eq_true, if_false]
    have e : ∀ l : List OutFile, sourceFiles c o l = l.map fun f => (f.name, f.text c o) := fun l => by unfold sourceFiles; rw [hs]; rfl
    rw [e] at h
    induction files generalizing D with
    | nil => exact hend D hr
    | cons f fs ih =>
      rw [List.flatMap_cons, List.append_assoc]
      have hf := h (f.name, f.text c o) (by simp)
      refine ⟨hf.1, ?_, ?_⟩
      · rw [sourceDir_parent hf.2.ne.1 hf.2.ne.2]
        exact .inr (by simp [dirChain])
      · exact ih (.inl hr) (fun p hp => h p (by simp only [List.map_cons, List.mem_cons]; exact .inr hp))

theorem chains_run {c : Config} {o : Opts} {bs : List SortItem} {files : List OutFile} {q : Str} (h : FileOp.mkdir q ∈ runOps c o bs files) :
    ∃ p ∈ sourceFiles c o files, q = sourceDir o.pre p.1 := by
  unfold runOps at h
  simp only [List.mem_cons, List.mem_append, reduceCtorEq, false_or] at h
  rcases h with h | h
  · obtain ⟨f, hf, hq⟩ := List.mem_flatMap.1 h
    unfold fileOps at hq
    unfold sourceFiles
    cases hs : o.single with
    | true => rw [hs] at hq; simp at hq
    | false =>
      rw [hs] at hq
      simp only [Bool.false_eq_true, if_false, List.mem_cons, FileOp.mkdir.injEq, reduceCtorEq, List.not_mem_nil, or_false] at hq ⊢
      exact ⟨_, List.mem_map.2 ⟨f, hf, rfl⟩, hq⟩
  · unfold endOps at h
    cases hs : o.single <;> rw [hs] at h <;> simp at h

/-! ## Directories -/

theorem lists_clear {o : Opts} {name ext r : Str} (he : ext = c!".sources" ∨ ext = c!".modules") (h : SourceName o name) : name ≠ o.root ++ ext ++ c!"/" ++ r := by
  intro e
  rcases h with rfl | ⟨_, _, n, rfl⟩ | ⟨_, _, stem, hd, rfl⟩
  · simp only [List.append_assoc] at e
    have := List.append_cancel_left e
    rcases he with rfl | rfl <;> simp at this
  · simp only [List.append_assoc] at e
    have := List.append_cancel_left e
    rcases he with rfl | rfl <;> simp at this
  · have hl : 8 = ext.length := by rcases he with rfl | rfl <;> rfl
    by_cases hlt : o.root.length < stem.length
    · apply hd
      have e1 : (stem ++ c!".cpp")[o.root.length]? = some '.' := by
        rw [e]; rcases he with rfl | rfl <;> simp
      rw [List.getElem?_append_left hlt] at e1
      exact List.mem_of_getElem? e1
    · have := congrArg List.length e
      simp only [List.length_append, List.length_cons, List.length_nil] at this
      omega

theorem updateAll_dirs {pre : Str} {fs fs' : FS} {l : List (Str × Str)} (h : updateAll pre fs l = some fs') :
    ∀ d, fs'.dirs d = true ↔ fs.dirs d = true ∨ ∃ p ∈ l, d ∈ dirChain (sourceDir pre p.1) := by
  induction l generalizing fs with
  | nil => simp only [updateAll, Option.some.injEq] at h; subst h; simp
  | cons p l ih =>
    obtain ⟨name, code⟩ := p
    simp only [updateAll] at h
    split at h
    · cases h
    · rename_i fs1 hu
      have hU := updateSourceFile_some hu
      intro d
      rw [ih h d, hU.dirs d, or_assoc]
      simp

theorem updateAll_writes {pre : Str} {fs fs' : FS} {l : List (Str × Str)} (h : updateAll pre fs l = some fs') :
    ∃ w, fs'.writes = fs.writes ++ w ∧ ∀ x ∈ w, ∃ p ∈ l, x = pre ++ c!"/" ++ p.1 := by
  induction l generalizing fs with
  | nil => simp only [updateAll, Option.some.injEq] at h; subst h; exact ⟨[], by simp, by simp⟩
  | cons p l ih =>
    obtain ⟨name, code⟩ := p
    simp only [updateAll] at h
    split at h
    · cases h
    · rename_i fs1 hu
      have hU := updateSourceFile_some hu
      obtain ⟨w, e, hw⟩ := ih h
      have e1 := hU.writes
      split at e1
      · exact ⟨w, by rw [e, e1], fun x hx => (hw x hx).imp fun p hp => ⟨List.mem_cons_of_mem _ hp.1, hp.2⟩⟩
      · refine ⟨(pre ++ c!"/" ++ name) :: w, by rw [e, e1]; simp, ?_⟩
        intro x hx
        rcases List.mem_cons.1 hx with rfl | hx
        · exact ⟨_, List.mem_cons_self, rfl⟩
        · exact (hw x hx).imp fun p hp => ⟨List.mem_cons_of_mem _ hp.1, hp.2⟩

/-- Sources can be written if their directories are not files and they are not directories. -/
theorem updateAll_ok {pre : Str} {D : Str → Prop} {l : List (Str × Str)} : ∀ {fs : FS},
    (∀ p ∈ l, sourceDir pre p.1 ≠ [] ∧ CppName p.1 ∧ (∀ d ∈ dirChain (sourceDir pre p.1), D d) ∧ ¬ D (pre ++ c!"/" ++ p.1)) →
    (∀ d, fs.dirs d = true → D d) → (∀ d, D d → fs.files d = none) → ∃ fs', updateAll pre fs l = some fs' := by
  induction l with
  | nil => exact fun _ _ _ => ⟨_, rfl⟩
  | cons p l ih =>
    intro fs h hd hf
    obtain ⟨name, code⟩ := p
    obtain ⟨h1, h2, h3, h4⟩ := h (name, code) List.mem_cons_self
    have : ∃ fs1, updateSourceFile fs pre name code = some fs1 := by
      obtain ⟨fs1, hm⟩ := mkdirP_ok h1 (fun d hdd => hf d (h3 d hdd))
      obtain ⟨m1, _, m3, _⟩ := mkdirP_some hm
      unfold updateSourceFile
      rw [hm]
      simp only
      split
      · apply writeFile_ok
        · cases hc : fs1.dirs (pre ++ c!"/" ++ name) with
          | false => rfl
          | true =>
            rcases (m3 _).1 hc with hc | hc
            · exact absurd (hd _ hc) h4
            · exact absurd (h3 _ hc) h4
        · rw [sourceDir_parent h2.ne.1 h2.ne.2]
          exact (m3 _).2 (.inr (by simp [dirChain]))
      · exact ⟨_, rfl⟩
    obtain ⟨fs1, hu⟩ := this
    have hU := updateSourceFile_some hu
    obtain ⟨fs', h'⟩ := ih (fs := fs1) (fun p hp => h p (List.mem_cons_of_mem _ hp)) (fun d hdd => by
      rcases (hU.dirs d).1 hdd with hdd | hdd
      · exact hd d hdd
      · exact h3 d hdd) (fun d hdd => by
      rw [hU.frame d (fun e => h4 (e ▸ hdd))]
      exact hf d hdd)
    exact ⟨fs', by simp only [updateAll, hu, h']⟩

/-- A source that does not exist is written. -/
theorem updateAll_fresh {pre : Str} {l : List (Str × Str)} : ∀ {fs fs' : FS}, updateAll pre fs l = some fs' → (l.map (·.1)).Nodup →
    ∀ p ∈ l, p.2 ≠ [] → fs.files (pre ++ c!"/" ++ p.1) = none → ∃ w, fs'.writes = fs.writes ++ w ∧ (pre ++ c!"/" ++ p.1) ∈ w := by
  induction l with
  | nil => intro _ _ _ _ p hp; cases hp
  | cons q l ih =>
    intro fs fs' h hnd p hp hne hf
    obtain ⟨name, code⟩ := q
    simp only [updateAll] at h
    split at h
    · cases h
    · rename_i fs1 hu
      have hU := updateSourceFile_some hu
      obtain ⟨w, e, _⟩ := updateAll_writes h
      simp only [List.map_cons, List.nodup_cons] at hnd
      rcases List.mem_cons.1 hp with rfl | hp
      · have e1 := hU.writes
        rw [hf, if_neg (fun e => hne e.symm)] at e1
        exact ⟨(pre ++ c!"/" ++ name) :: w, by rw [e, e1]; simp, List.mem_cons_self⟩
      · have hn : pre ++ c!"/" ++ p.1 ≠ pre ++ c!"/" ++ name := by
          intro e'
          exact hnd.1 (List.mem_map.2 ⟨p, hp, List.append_cancel_left e'⟩)
        obtain ⟨w', e', hw'⟩ := ih h hnd.2 p hp hne (by rw [hU.frame _ hn]; exact hf)
        have e1 := hU.writes
        split at e1
        · exact ⟨w', by rw [e', e1], hw'⟩
        · exact ⟨(pre ++ c!"/" ++ name) :: w', by rw [e', e1]; simp, List.mem_cons_of_mem _ hw'⟩

end Binder
