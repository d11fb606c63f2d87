import Verif.Lemmas.StepsWorld

/-!
# Runs that end before their time, one operation after the other
-/

namespace Binder

open Spec

/-- The content of one file replaced. -/
def FS.setFile (fs : FS) (name text : Str) : FS := { fs with files := fun x => if x = name then some text else fs.files x }

/-- No text is held back. -/
def NoText (st : Slot → Option Stream) : Prop := ∀ s h, st s = some h → h.buffer = []

theorem writeFile_set {fs fs1 : FS} {n : Str} (h : writeFile fs n [] = some fs1) (code : Str) : writeFile fs n code = some (fs1.setFile n code) := by
  unfold writeFile at h ⊢
  split at h
  · cases h
  · rename_i hc
    rw [if_neg hc]
    cases h
    congr 2
    funext x
    simp only [FS.setFile]
    split <;> rfl

theorem writeFile_none {fs : FS} {n : Str} (h : writeFile fs n [] = none) (code : Str) : writeFile fs n code = none := by
  unfold writeFile at h ⊢
  split at h
  · rename_i hc; rw [if_pos hc]
  · cases h

theorem writeFile_at {fs fs1 : FS} {n : Str} (h : writeFile fs n [] = some fs1) : fs1.files n = some [] := by
  unfold writeFile at h
  split at h
  · cases h
  · cases h; simp

/-- What is left to do for some files, with the text they get. -/
def updateOps (pre : Str) (l : List (Str × Str)) : List FileOp :=
  l.flatMap fun f => [.mkdir (sourceDir pre f.1), .refresh (pre ++ c!"/" ++ f.1) f.2]

/-- A process that is going to end in the given way and leaves the files `g`. -/
inductive Doomed (how : Ending) (pre : Str) (g : Str → Option Str) : Proc × FS → Prop where
  | ended {st fs} : NoText st → fs.files = g → Doomed how pre g (⟨[], st, some how⟩, fs)
  | stop {st fs} : NoText st → fs.files = g → Doomed how pre g (⟨[.stop how], st, none⟩, fs)
  | shut {st fs s n r} : NoText st → fs.files = g → how = .thrown → writeFile fs n [] = none → Doomed how pre g (⟨.openFile s n true :: r, st, none⟩, fs)
  | openStop {st fs fs1 s n} : NoText st → writeFile fs n [] = some fs1 → fs1.files = g → Doomed how pre g (⟨[.openFile s n true, .stop how], st, none⟩, fs)
  | openRoot {st fs fs1 g' n l r} : NoText st → writeFile fs n [] = some fs1 → updateUntil pre fs1 l = .inl g' → g'.files = g → how = .thrown →
      Doomed how pre g (⟨.openFile .root n true :: (updateOps pre l ++ r), st, none⟩, fs)
  | update {st fs g' l r} : NoText st → updateUntil pre fs l = .inl g' → g'.files = g → how = .thrown → Doomed how pre g (⟨updateOps pre l ++ r, st, none⟩, fs)
  | refreshBad {st fs n code r} : NoText st → fs.files = g → how = .thrown → ((fs.files n).getD [] != code) = true → writeFile fs n [] = none →
      Doomed how pre g (⟨.refresh n code :: r, st, none⟩, fs)
  | refresh {st fs fs1 g' n code l r} : NoText st → (if (fs.files n).getD [] != code then writeFile fs n code else some fs) = some fs1 →
      updateUntil pre fs1 l = .inl g' → g'.files = g → how = .thrown → Doomed how pre g (⟨.refresh n code :: (updateOps pre l ++ r), st, none⟩, fs)
  | opening {st fs fs1 g' n code l r} : NoText st → writeFile fs n [] = some fs1 → updateUntil pre (fs1.setFile n code) l = .inl g' → g'.files = g →
      how = .thrown → Doomed how pre g (⟨.openFile .source n true :: .put .source code :: .close .source :: (updateOps pre l ++ r), st, none⟩, fs)
  | putting {st fs g' n code l r} : NoText st → st .source = some ⟨n, 0, []⟩ → fs.files n = some [] → updateUntil pre (fs.setFile n code) l = .inl g' →
      g'.files = g → how = .thrown → Doomed how pre g (⟨.put .source code :: .close .source :: (updateOps pre l ++ r), st, none⟩, fs)
  | closing {st fs g' n a b l r} : (∀ s h, s ≠ .source → st s = some h → h.buffer = []) → st .source = some ⟨n, a.length, b⟩ → fs.files n = some a →
      updateUntil pre (fs.setFile n (a ++ b)) l = .inl g' → g'.files = g → how = .thrown →
      Doomed how pre g (⟨.close .source :: (updateOps pre l ++ r), st, none⟩, fs)

theorem NoText.set {st : Slot → Option Stream} (h : NoText st) (s : Slot) (n : Str) (k : Nat) : NoText (setStream st s (some ⟨n, k, []⟩)) := by
  intro t x hx
  rcases setStream_some hx with ⟨_, e⟩ | ⟨_, e⟩
  · cases e; rfl
  · exact h t x e

theorem NoText.flush {st : Slot → Option Stream} (h : NoText st) {s : Slot} {x : Stream} {a b : Str} (e : st s = some x) (hb : x.buffer = a ++ b) (ha : a ≠ []) :
    False := by
  rw [h s x e] at hb
  exact ha (List.append_eq_nil_iff.1 hb.symm).1

theorem writeAt_set {fs : FS} {n a : Str} (h : fs.files n = some a) (b : Str) : fs.writeAt n a.length b = fs.setFile n (a ++ b) := by
  unfold FS.writeAt
  split
  · rename_i hb
    rw [List.isEmpty_iff.1 hb, List.append_nil]
    have e : (fun x => if x = n then some a else fs.files x) = fs.files := by
      funext x
      split
      · rename_i e; rw [e, h]
      · rfl
    unfold FS.setFile
    rw [e]
  · unfold FS.setFile
    rw [h]
    simp only [Option.getD_some, patch_end]

theorem setFile_setFile (fs : FS) (n a b : Str) : (fs.setFile n a).setFile n b = fs.setFile n b := by
  unfold FS.setFile
  congr 1
  funext x
  dsimp only
  split <;> rfl

theorem Doomed.step {how : Ending} {pre : Str} {g : Str → Option Str} {a b : Proc × FS} (h : Doomed how pre g a) (hs : ProcStep a b) : Doomed how pre g b := by
  cases h with
  | ended hn hf => cases hs with
    | op e => cases e
    | flush e hb ha => exact (hn.flush e hb ha).elim
  | stop hn hf => cases hs with
    | op e => cases e; exact .ended hn hf
    | flush e hb ha => exact (hn.flush e hb ha).elim
  | shut hn hf ht hw => cases hs with
    | op e => cases e; subst ht; simp only [FileOp.exec, hw, if_true]; exact .ended hn hf
    | flush e hb ha => exact (hn.flush e hb ha).elim
  | openStop hn hw hf => cases hs with
    | op e => cases e; simp only [FileOp.exec, hw]; exact .stop (hn.set _ _ _) hf
    | flush e hb ha => exact (hn.flush e hb ha).elim
  | openRoot hn hw hu hf ht => cases hs with
    | op e => cases e; simp only [FileOp.exec, hw]; exact .update (hn.set _ _ _) hu hf ht
    | flush e hb ha => exact (hn.flush e hb ha).elim
  | @update st fs g' l r hn hu hf ht => cases hs with
    | op e =>
      cases l with
      | nil => cases hu
      | cons f l =>
        obtain ⟨name, code⟩ := f
        cases e
        simp only [FileOp.exec]
        rw [updateUntil] at hu
        unfold updateSourceFile at hu
        cases hm : mkdirP fs (sourceDir pre name) with
        | none =>
          simp only [hm] at hu
          cases hu
          subst ht
          exact .ended hn hf
        | some fs1 =>
          simp only [hm] at hu
          dsimp only
          cases hx : (if (fs1.files (pre ++ c!"/" ++ name)).getD [] != code then writeFile fs1 (pre ++ c!"/" ++ name) code else some fs1) with
          | some fs2 =>
            rw [hx] at hu
            exact .refresh hn hx hu hf ht
          | none =>
            rw [hx] at hu
            cases hu
            have hfs : fs1.files = fs.files := by
              unfold mkdirP at hm
              split at hm
              · cases hm
              · cases hm; rfl
            split at hx
            · rename_i hc
              refine .refreshBad hn (hfs.trans hf) ht hc ?_
              cases hw : writeFile fs1 (pre ++ c!"/" ++ name) [] with
              | none => rfl
              | some y => rw [writeFile_set hw] at hx; cases hx
            · cases hx
    | flush e hb ha => exact (hn.flush e hb ha).elim
  | refreshBad hn hf ht hc hw => cases hs with
    | op e => cases e; simp only [FileOp.exec, hc, if_true]; exact .shut hn hf ht hw
    | flush e hb ha => exact (hn.flush e hb ha).elim
  | @refresh st fs fs1 g' n code l r hn hc hu hf ht => cases hs with
    | op e =>
      cases e
      simp only [FileOp.exec]
      split at hc
      · rename_i hd
        rw [if_pos hd]
        cases hw : writeFile fs n [] with
        | none => rw [writeFile_none hw] at hc; cases hc
        | some y =>
          rw [writeFile_set hw] at hc
          cases hc
          exact .opening hn hw hu hf ht
      · rename_i hd
        rw [if_neg hd]
        cases hc
        exact .update hn hu hf ht
    | flush e hb ha => exact (hn.flush e hb ha).elim
  | opening hn hw hu hf ht => cases hs with
    | op e =>
      cases e
      simp only [FileOp.exec, hw]
      exact .putting (hn.set _ _ _) (setStream_self _ _ _) (writeFile_at hw) hu hf ht
    | flush e hb ha => exact (hn.flush e hb ha).elim
  | @putting st fs g' n code l r hn he h0 hu hf ht => cases hs with
    | op e =>
      cases e
      simp only [FileOp.exec, he]
      refine .closing (a := []) (b := code) ?_ (setStream_self _ _ _) h0 hu hf ht
      intro s x hs hx
      rw [setStream_ne _ _ hs] at hx
      exact hn s x hx
    | flush e hb ha => exact (hn.flush e hb ha).elim
  | @closing st fs g' n a b l r hn he h0 hu hf ht => cases hs with
    | op e =>
      cases e
      simp only [FileOp.exec, he]
      rw [writeAt_set h0]
      refine .update ?_ hu hf ht
      intro s x hx
      rcases setStream_some hx with ⟨_, e⟩ | ⟨hs, e⟩
      · cases e
      · exact hn s x hs e
    | @flush _ _ s y a' b' e hb ha =>
      by_cases hs : s = .source
      · subst hs
        dsimp only at e
        rw [he] at e
        cases e
        dsimp only at hb ⊢
        subst hb
        rw [writeAt_set h0]
        refine .closing (n := n) (a := a ++ a') (b := b') ?_ ?_ (by simp [FS.setFile]) ?_ hf ht
        · intro s x hs hx
          rw [setStream_ne _ _ hs] at hx
          exact hn s x hs hx
        · rw [setStream_self, List.length_append]
        · rw [setFile_setFile, List.append_assoc]; exact hu
      · have := hn s y hs e
        rw [this] at hb
        exact absurd (List.append_eq_nil_iff.1 hb.symm).1 ha

theorem Doomed.moves {how : Ending} {pre : Str} {g : Str → Option Str} {a b : Proc × FS} (h : Doomed how pre g a) (hm : Moves a b) : Doomed how pre g b := by
  induction hm with
  | refl => exact h
  | tail _ hs ih => exact ih.step hs

theorem Doomed.done {how : Ending} {pre : Str} {g : Str → Option Str} {p : Proc} {fs : FS} (h : Doomed how pre g (p, fs)) (ht : p.todo = []) :
    p.ended = some how ∧ fs.files = g := by
  cases h with
  | ended _ hf => exact ⟨rfl, hf⟩
  | @update st fs g' l r hn hu hf hh =>
    cases l with
    | nil => cases hu
    | cons f l => cases ht
  | _ => cases ht

theorem updateOps_files (c : Config) (o : Opts) (files : List OutFile) (hs : o.single = false) :
    files.flatMap (fileOps c o) = updateOps o.pre (sourceFiles c o files) := by
  simp only [updateOps, sourceFiles, hs, Bool.false_eq_true, if_false, List.flatMap_map]
  congr 1
  funext f
  simp [fileOps, hs]

/-- The start of a run that ends before its time. -/
theorem ends_doomed {U : TransUnit} {o : Opts} {fs fs' : FS} {p : Proc} (hp : U.Starts o p) :
    (U.Ends o fs (.exit fs') → Doomed .exit o.pre fs'.files (p, fs)) ∧ (U.Ends o fs (.thrown fs') → Doomed .thrown o.pre fs'.files (p, fs)) := by
  obtain ⟨m, hp, hst, he⟩ := hp
  obtain ⟨todo, st, ended⟩ := p
  dsimp only at hp hst he
  subst he
  have hn : NoText st := by intro s h e; rw [hst s] at e; cases e
  have key : ∀ out, U.Ends o fs out → (∀ g, out = .exit g → Doomed .exit o.pre g.files (⟨todo, st, none⟩, fs)) ∧
      (∀ g, out = .thrown g → Doomed .thrown o.pre g.files (⟨todo, st, none⟩, fs)) := by
    rintro out ⟨n, h⟩
    rw [TransUnit.runF] at h
    rw [TransUnit.programF] at hp
    split at h
    · rename_i hc
      rw [if_pos hc] at hp
      cases hp
      cases h
      exact ⟨by rintro g ⟨⟩, by rintro g ⟨⟩; exact .stop hn rfl⟩
    rename_i hc
    rw [if_neg hc] at hp
    simp only [generateF] at h
    simp only [generateOpsF] at hp
    split at h
    · cases h
    rename_i s1 hs1
    split at hp
    · cases hp
    rename_i s2 hs2
    have e := Loop.Returns.unique ⟨n, hs1⟩ ⟨m, hs2⟩
    subst e
    split at h
    · rename_i hw
      cases h
      refine ⟨by rintro g ⟨⟩, ?_⟩
      rintro g ⟨⟩
      split at hp
      · cases hp
      · cases hp; exact .shut hn rfl rfl hw
      · split at hp
        · cases hp
        · cases hp; exact .shut hn rfl rfl hw
    rename_i fs1 hw
    split at h
    · cases h
    · rename_i hq
      cases h
      refine ⟨?_, by rintro g ⟨⟩⟩
      rintro g ⟨⟩
      split at hp
      · cases hp
      · cases hp; exact .openStop hn hw rfl
      · rename_i hq'
        cases Loop.Returns.unique ⟨n, hq⟩ ⟨m, hq'⟩
    rename_i bs hq
    split at h
    · cases h
    rename_i files hg
    split at h
    · rename_i fs2 hu
      cases h
      refine ⟨by rintro g ⟨⟩, ?_⟩
      rintro g ⟨⟩
      split at hp
      · cases hp
      · rename_i hq'
        cases Loop.Returns.unique ⟨n, hq⟩ ⟨m, hq'⟩
      · rename_i bs' hq'
        have e := Option.some.inj (Loop.Returns.unique ⟨n, hq⟩ ⟨m, hq'⟩)
        subst e
        split at hp
        · cases hp
        · rename_i files' hg'
          have e := Loop.Returns.unique ⟨n, hg⟩ ⟨m, hg'⟩
          subst e
          cases hp
          cases hsi : o.single with
          | true => simp [sourceFiles, hsi, updateUntil] at hu
          | false =>
            rw [runOps, updateOps_files _ _ _ hsi]
            exact .openRoot hn hw hu rfl rfl
    · cases h
      exact ⟨by rintro g ⟨⟩, by rintro g ⟨⟩⟩
  exact ⟨fun h => (key _ h).1 _ rfl, fun h => (key _ h).2 _ rfl⟩

end Binder
