import Verif.Lemmas.Contradiction
import Verif.Lemmas.Room
import Verif.Props.RunOrder

/-!
# C87: which runs fail
-/

namespace Binder

open Cxx Spec

/-- C87. The question whether a declaration is to be left out has no answer exactly if nothing is said about the declaration itself and a
namespace it depends on is asked for and left out. -/
theorem C87_unclear (E : Env) (hw : E.Wellfounded) (v : Visit) : (∃ e, skipQuery E v = .error e) ↔ Unclear E v := skipQuery_unclear hw v

/-- C87. If no namespace is asked for and left out in the same words, every question about every function, class and enumeration has an
answer (also those asked while the code is generated, where the model has no exceptions). -/
theorem C87_answers (E : Env) (hw : E.Wellfounded) (h : Agreeing E.cfg) (v : Visit) :
    (∃ b, skipQuery E v = .ok b) ∧ ∃ b, bindQuery E v = .ok b :=
  ⟨ok_of_not_fails (h.skipQuery hw v), ok_of_not_fails (h.bindQuery hw v)⟩

theorem TransUnit.wellfounded {U : TransUnit} (hw : U.env.Wellfounded) : U.E.Wellfounded := ⟨hw.bases, hw.args, hw.nested⟩

/-- C87. A declaration that could be bound, but for which that question has no answer, stops the run before a file is written. -/
theorem C87_contradiction (U : TransUnit) (o : Opts) (fs : FS) (hw : U.env.Wellfounded) (v : Visit) (hv : v ∈ considered U) (hc : CanBind U.E v)
    (h : Unclear U.E v) : ∀ out, U.Ends o fs out ↔ out = .thrown fs := by
  have hcon : U.conflictIn [] (U.visits.filter U.offered) = true := by
    rw [conflictIn_iff, ← considered_eq]
    refine ⟨v, hv, by simp, (decl_canBind U v (considered_offered hv).2).2 hc, ?_⟩
    rw [TransUnit.conflict, throws_iff.2 ((skipQuery_unclear (TransUnit.wellfounded hw) v).2 h)]
    rfl
  intro out
  simp only [TransUnit.Ends, TransUnit.runF, hcon, if_true, Option.some.injEq]
  exact ⟨fun ⟨_, h⟩ => h.symm, fun h => ⟨0, h.symm⟩⟩

theorem Spec.Agreeing.noConflict {U : TransUnit} (hw : U.env.Wellfounded) (h : Agreeing U.env.cfg) :
    U.conflictIn [] (U.visits.filter U.offered) = false := by
  rw [← Bool.not_eq_true, conflictIn_iff]
  rintro ⟨v, _, _, _, hc⟩
  have hw := TransUnit.wellfounded hw
  have h : Agreeing U.E.cfg := h
  simp only [TransUnit.conflict, Bool.or_eq_true, Bool.and_eq_true, throws_iff] at hc
  rcases hc with hc | ⟨_, hc⟩
  · exact h.skipQuery hw v hc
  · exact h.bindQuery hw v hc

theorem sourceNames_apart {o : Opts} (hroot : '/' ∉ o.root) : NamesApart (SourceName o) where
  cpp := by
    rintro a (rfl | ⟨_, _, n, rfl⟩ | ⟨_, _, stem, _, rfl⟩)
    · exact ⟨_, rfl⟩
    · exact ⟨_, rfl⟩
    · exact ⟨_, rfl⟩
  apart := by
    have digits : ∀ n, '/' ∉ natStr n := fun n hm => by
      have := natStr_digit hm
      exact absurd this (by decide)
    intro a b r ha hb e
    have hs : '/' ∈ b := by rw [e]; simp
    rcases hb with rfl | ⟨_, _, n, rfl⟩ | ⟨_, _, stem, hd, rfl⟩
    · simp [hroot] at hs
    · simp [hroot, digits n] at hs
    · have ha : CppName a := by
        rcases ha with rfl | ⟨_, _, n, rfl⟩ | ⟨_, _, stem, _, rfl⟩
        · exact ⟨_, rfl⟩
        · exact ⟨_, rfl⟩
        · exact ⟨_, rfl⟩
      obtain ⟨s, rfl⟩ := ha
      by_cases hl : s.length < stem.length
      · apply hd
        have e1 : (stem ++ c!".cpp")[s.length]? = some '.' := by rw [e]; simp
        rw [List.getElem?_append_left hl] at e1
        exact List.mem_of_getElem? e1
      · have := congrArg List.length e
        simp only [List.length_append, List.length_cons, List.length_nil] at this
        omega

theorem sourceFiles_names {U : TransUnit} {o : Opts} {bs : List SortItem} {files : List OutFile} (hn : bs.length + 1 < 2 ^ 32)
    (hg : Loop.Returns (genStep U.E.cfg o bs) GenState.init files) : ∀ p ∈ sourceFiles U.E.cfg o files, SourceName o p.1 := by
  intro p hp
  unfold sourceFiles at hp
  split at hp
  · cases hp
  · rename_i hs
    obtain ⟨F, hF, rfl⟩ := List.mem_map.1 hp
    cases hf : o.flat with
    | true => exact .inr (.inl ⟨by simpa using hs, hf, C21_names_flat _ o hf bs hn files hg F hF⟩)
    | false =>
      obtain ⟨stem, e, hc⟩ := C21_names_safe _ o hf bs hn files hg F hF
      refine .inr (.inr ⟨by simpa using hs, hf, stem, ?_, e⟩)
      intro hm
      rcases hc _ hm with h | h | h | h | h | h <;> exact absurd h (by decide)

/-- C87. If the wishes do not contradict each other and there is room for the files, a run fails only for a missing base: a class that is
to be bound names a base that can be bound and is not left out, but is not among the declarations considered. -/
theorem C87_succeeds (U : TransUnit) (o : Opts) (fs : FS) (hw : U.env.Wellfounded) (hn : U.visits.length + 1 < 2 ^ 32) (hmax : 1 ≤ o.maxLen)
    (ha : Agreeing U.env.cfg) (hroot : '/' ∉ o.root) (hroom : HasRoom fs o)
    (hbases : ∀ i j, Reached U (.cls i) → ListedBase U.E i j → builtinDecl U.E (U.E.cls j).qname = false → .cls j ∈ considered U) :
    ∃ fs', U.Ends o fs (.done fs') := by
  obtain ⟨out, h⟩ := C70_terminates U o fs hw hn hmax
  have hP := sourceNames_apart hroot
  cases out with
  | done fs' => exact ⟨fs', h⟩
  | exit fs' =>
    obtain ⟨i, j, h1, h2, h3, h4⟩ := C71_exit_only_if_missing U o fs fs' h
    exact absurd (hbases i j h1 h2 h3) h4
  | thrown fs' =>
    exfalso
    obtain ⟨n, h⟩ := h
    rw [TransUnit.runF, ha.noConflict hw] at h
    simp only [Bool.false_eq_true, if_false, generateF] at h
    split at h
    · cases h
    · rename_i st h1
      split at h
      · rename_i hwr
        unfold writeFile at hwr
        split at hwr
        · rename_i hd
          rw [rootPath, parentDir_base (by simp [hroot]), hroom.2.1, Bool.not_true, Bool.or_false] at hd
          exact hroom.2.2 _ (.inl rfl) (.inr hd)
        · cases hwr
      · rename_i fs1 hwr
        split at h
        · cases h
        · cases h
        · rename_i bs h2
          have hl := bs_length ⟨n, h2⟩
          split at h
          · cases h
          · rename_i files h3
            have hr1 : Room (SourceName o) fs1 o.pre := Room.write hP (.inl rfl) ⟨hroom.1, hroom.2.2⟩ hwr
            obtain ⟨fs2, e⟩ := Room.updateUntil hP (sourceFiles_names (by omega) ⟨n, h3⟩) hr1
            rw [e] at h
            cases h

/-- C87. Without an existing output directory a run fails and changes nothing. -/
theorem C87_no_directory (U : TransUnit) (o : Opts) (fs : FS) (hroot : '/' ∉ o.root) (hd : fs.dirs o.pre = false) : U.Ends o fs (.thrown fs) := by
  have hno : writeFile fs (rootPath o) [] = none := by
    unfold writeFile
    rw [rootPath, parentDir_base (by simp [hroot]), hd]; simp
  unfold TransUnit.Ends TransUnit.runF
  cases hc : U.conflictIn [] (U.visits.filter U.offered) with
  | true => exact ⟨0, rfl⟩
  | false =>
    obtain ⟨st, h1⟩ := C25_terminates U.offers (offers_productive U)
    exact ⟨(register U.offers).binders.length + 1, by simp only [Bool.false_eq_true, if_false, generateF, h1, hno]⟩

theorem updateAll_path {pre : Str} {fs fs' : FS} {l : List (Str × Str)} (h : updateAll pre fs l = some fs') : ∀ p ∈ l, sourceDir pre p.1 ≠ [] := by
  induction l generalizing fs with
  | nil => simp
  | cons q l ih =>
    obtain ⟨name, code⟩ := q
    rw [updateAll] at h
    cases hu : updateSourceFile fs pre name code with
    | none => rw [hu] at h; cases h
    | some fs1 =>
      rw [hu] at h
      intro p hp
      rcases List.mem_cons.1 hp with rfl | hp
      · exact (updateSourceFile_some hu).path
      · exact ih h p hp

/-- C87. Nor does it succeed without `--prefix`, although that has a default: with numbered sources, `mkdir -p` is called without a
directory as soon as one declaration is to be bound. -/
theorem C87_no_prefix (U : TransUnit) (o : Opts) (fs fs' : FS) (hn : U.visits.length + 1 < 2 ^ 32) (hroot : '/' ∉ o.root)
    (hpre : o.pre = []) (hflat : o.flat = true) (hs : o.single = false)
    (v : Visit) (hv : Reached U v) (hns : U.E.cfg.binderForNamespaces (U.decl v).ns = none) : ¬ U.Ends o fs (.done fs') := by
  intro h
  obtain ⟨st, bs, files, fs1, fs2, h⟩ := ends_done h
  have hn' : bs.length + 1 < 2 ^ 32 := by have := h.length; omega
  obtain ⟨b, hb, e⟩ := h.item_of hv.considered
  have hvb := h.visitOf hb
  have hvv : Binder.visitOf U b = v := considered_inj hvb.1 hv.considered (hvb.2.1.symm.trans e)
  rw [hvv] at hvb
  have hcode : b.code ≠ [] := by rw [hvb.2.2.1 hv]; exact bindingOf_ne_nil hv
  have hm : b ∈ files.flatMap declsOf := by
    rw [C31_emitted_once_in_order _ o bs hn' files h.gen]
    exact List.mem_filter.2 ⟨hb, by rw [e, hns]; simpa using hcode⟩
  obtain ⟨F, hF, _⟩ := List.mem_flatMap.1 hm
  obtain ⟨n, hname⟩ := C21_names_flat _ o hflat bs hn' files h.gen F hF
  have hp : (F.name, F.text U.E.cfg o) ∈ sourceFiles U.E.cfg o files := by
    unfold sourceFiles; rw [hs]; exact List.mem_map_of_mem hF
  have := updateAll_path h.update _ hp
  apply this
  have hns : '/' ∉ F.name := by
    have : '/' ∉ natStr n := fun hx => absurd (natStr_digit hx) (by decide)
    rw [hname]; simp [hroot, this]
  rw [hpre, ← sourceDir_parent (by rw [hname]; simp) (by rw [hname, List.getLast?_append]; simp), parentDir_base hns]

/-- C87, from the configuration file: no two lines `+namespace x` and `-namespace x` (nor the options `--bind x` and `--skip x`) with the
same name, blanks aside. -/
theorem C87_from_file (b : BindOptions) (c c' : Config) (content : Str) (h : startTranslationUnit b content c = .ok c')
    (hd : ∀ x ∈ b.bind ++ (given '+' c!"namespace" (getlines content)).map noSpaces, x ≠ [] →
      x ∉ b.skip ++ (given '-' c!"namespace" (getlines content)).map noSpaces) : Agreeing c' := by
  obtain ⟨h1, h2, _⟩ := C05_lists _ c' content h
  unfold Agreeing
  rw [h1, h2]
  exact hd

/-! ## Examples -/

/-- The hypotheses of `C87_succeeds` are met by the example program. -/
example : Ex.unit.env.Wellfounded ∧ Agreeing Ex.unit.env.cfg ∧ HasRoom Ex.fsEmpty (Ex.opts 1000) ∧
    ∀ i j, Reached Ex.unit (.cls i) → ListedBase Ex.unit.E i j → builtinDecl Ex.unit.E (Ex.unit.E.cls j).qname = false → .cls j ∈ considered Ex.unit := by
  refine ⟨Ex.env_wellfounded, fun e _ _ h => (by cases h), ⟨by decide, by decide, ?_⟩, ?_⟩
  · rintro name _ (⟨d, r, _, h⟩ | h)
    · cases h
    · have := congrArg List.length (beq_iff_eq.1 h)
      simp [Ex.opts] at this
  · intro i j hr hl _
    have hi := hr.considered
    rw [Ex.unit_considered] at hi ⊢
    rw [← mem_boundBases] at hl
    have key : ∀ i ∈ ([0, 1, 2, 3] : List Nat), ∀ j ∈ boundBases Ex.unit.E (Ex.unit.E.cls i), j ∈ [0, 1, 2, 3] := by decide +kernel
    have hi' : i ∈ [0, 1, 2, 3] := by simpa using hi
    simpa using key i hi' j hl

/-- The example program with `+namespace n` and `-namespace n`. -/
def Ex.torn : TransUnit := { Ex.unit with env := { Ex.unit.env with cfg := { Ex.unit.env.cfg with namespacesToSkip := [c!"n"] } } }

/-- The hypotheses of `C87_contradiction` are met. -/
example : Ex.torn.env.Wellfounded ∧ .fn Ex.fun_f ∈ considered Ex.torn ∧ CanBind Ex.torn.E (.fn Ex.fun_f) ∧ Unclear Ex.torn.E (.fn Ex.fun_f) := by
  refine ⟨⟨Ex.env_wellfounded.bases, Ex.env_wellfounded.args, Ex.env_wellfounded.nested⟩, ?_, trivial, ?_, .inl ⟨c!"n", by decide, ?_, ?_⟩⟩
  · have : considered Ex.torn = [.cls 0, .cls 1] ++ .cls 2 :: [.cls 3, .fn Ex.fun_f] := by
      rw [considered_eq]
      decide +kernel
    rw [this]; simp
  · intro name _
    exact ⟨nofun, nofun⟩
  · exact ⟨by decide, by decide, by decide⟩
  · exact ⟨by decide, by decide, by decide⟩

/-- The hypotheses of `C87_no_prefix` are met. -/
example : '/' ∉ { Ex.opts 1000 false true with pre := [] }.root ∧ Reached Ex.unit (.fn Ex.fun_f) ∧
    Ex.unit.E.cfg.binderForNamespaces (Ex.unit.decl (.fn Ex.fun_f)).ns = none := ⟨by decide, Ex.unit_reached.1, rfl⟩

end Binder
