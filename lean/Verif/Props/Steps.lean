import Verif.Lemmas.StepsWorld
import Verif.Lemmas.StepsFail
import Verif.Props.Run
import Verif.Props.Wishes

/-!
# C89, C90: interrupted runs, and runs at the same time
-/

namespace Binder

open Spec

/-! ## C89: interrupted runs -/

/-- C89. If a run would return with the files `final`, then after any number of runs, each of them interrupted at any time, every file still
has the content it had before the first of them, or a beginning of the text it has in `final`. Files that a complete run does not change are
as they were. -/
theorem C89_old_or_begun (U : TransUnit) (o : Opts) (fs final fs' : FS) (hw : fs.WF) (hn : U.visits.length + 1 < 2 ^ 32) (hd : DistinctNames U o)
    (hl : ListsFree fs o) (h : U.Ends o fs (.done final)) (hi : Interrupted U o fs fs') (x : Str) :
    fs'.files x = fs.files x ∨ ∃ t u, final.files x = some t ∧ fs'.files x = some u ∧ u <+: t := by
  obtain ⟨st, bs, files, fs1, fs2, h⟩ := ends_done h
  have hn' : bs.length + 1 < 2 ^ 32 := by have := h.length; omega
  have hpl := h.planned hw hn' hd hl
  obtain ⟨hb, hb'⟩ := h.interrupted hw hn' hd hl hi
  by_cases hx : ∃ t, (x, t) ∈ outsOf U.E.cfg o bs files
  · obtain ⟨t, hx⟩ := hx
    rcases hb' x t hx with e | ⟨u, e, hu⟩
    · exact .inl e
    · exact .inr ⟨t, u, hpl.new x t hx, e, hu⟩
  · exact .inl (hb.rest x (fun t ht => hx ⟨t, ht⟩))

/-- C89. A run that is started after such interruptions does not end before its time, and when it has done everything, all files are as if
there had been no interruption. -/
theorem C89_recovers (U : TransUnit) (o : Opts) (fs final fs' : FS) (hw : fs.WF) (hn : U.visits.length + 1 < 2 ^ 32) (hd : DistinctNames U o)
    (hl : ListsFree fs o) (h : U.Ends o fs (.done final)) (hi : Interrupted U o fs fs') (p q : Proc) (fs'' : FS) (hp : U.Starts o p)
    (hm : Moves (p, fs') (q, fs'')) : q.ended = none ∧ (q.todo = [] → fs''.files = final.files) := by
  obtain ⟨st, bs, files, fs1, fs2, h⟩ := ends_done h
  have hn' : bs.length + 1 < 2 ^ 32 := by have := h.length; omega
  have hpl := h.planned hw hn' hd hl
  obtain ⟨hb, _⟩ := h.interrupted hw hn' hd hl hi
  obtain ⟨hq, hb'⟩ := h.steps hw hn' hd hl hb hp hm
  refine ⟨hq.running, ?_⟩
  intro ht
  funext x
  by_cases hx : ∃ t, (x, t) ∈ outsOf U.E.cfg o bs files
  · obtain ⟨t, hx⟩ := hx
    rw [hq.done ht hx, hpl.new x t hx]
  · have hx' : ∀ t, (x, t) ∉ outsOf U.E.cfg o bs files := fun t ht => hx ⟨t, ht⟩
    rw [hb'.rest x hx', hpl.same x hx']

/-- C89. In the words of the model of whole runs: after such interruptions a run returns, with the same files. -/
theorem C89_recovers_whole (U : TransUnit) (o : Opts) (fs final fs' : FS) (hw : fs.WF) (hn : U.visits.length + 1 < 2 ^ 32) (hd : DistinctNames U o)
    (hl : ListsFree fs o) (h : U.Ends o fs (.done final)) (hi : Interrupted U o fs fs') :
    ∃ final', U.Ends o fs' (.done final') ∧ final'.files = final.files := by
  obtain ⟨st, bs, files, fs1, fs2, h⟩ := ends_done h
  have hn' : bs.length + 1 < 2 ^ 32 := by have := h.length; omega
  obtain ⟨g', g1, g2, hg, _, _, hf⟩ := h.from hw hn' hd hl (h.interrupted hw hn' hd hl hi).1
  exact ⟨g', ends_of_done hg, hf⟩

/-- C89, for runs that fail. If a run would stop with the error message about a missing base, or with an exception, and leave the files `failed`,
then, whenever the characters it writes reach the files, the process ends in this way and leaves these files. -/
theorem C89_failed_runs (U : TransUnit) (o : Opts) (fs failed : FS) (p q : Proc) (fs' : FS) (hp : U.Starts o p) (hm : Moves (p, fs) (q, fs')) (ht : q.todo = []) :
    (U.Ends o fs (.exit failed) → q.ended = some .exit ∧ fs'.files = failed.files) ∧
    (U.Ends o fs (.thrown failed) → q.ended = some .thrown ∧ fs'.files = failed.files) :=
  ⟨fun h => ((((ends_doomed hp).1 h).moves hm).done ht), fun h => ((((ends_doomed hp).2 h).moves hm).done ht)⟩

/-- C89. A process comes to its end: it cannot make steps forever, it can make one as long as it has something to do, and it can be brought
to its end from anywhere. -/
theorem C89_ends : (∀ f : Nat → Proc × FS, ¬ ∀ n, ProcStep (f n) (f (n + 1))) ∧ (∀ (p : Proc) (fs : FS), p.todo ≠ [] → ∃ b, ProcStep (p, fs) b) ∧
    ∀ (p : Proc) (fs : FS), ∃ q fs', Moves (p, fs) (q, fs') ∧ q.todo = [] :=
  ⟨fun _ h => no_endless h, fun _ fs h => progress fs h, can_finish⟩

/-- C89. The list of sources is written after the sources: in a run, as soon as the list differs from what it was before the run, every file
apart from the root module and the two lists is complete, also if the run does not get any further. -/
theorem C89_sources_before_list (U : TransUnit) (o : Opts) (fs final fs' : FS) (hw : fs.WF) (hn : U.visits.length + 1 < 2 ^ 32)
    (hd : DistinctNames U o) (hl : ListsFree fs o) (hs : o.single = false) (h : U.Ends o fs (.done final)) (p q : Proc) (hp : U.Starts o p)
    (hm : Moves (p, fs) (q, fs'))
    (hc : fs'.files (o.pre ++ c!"/" ++ o.root ++ c!".sources") ≠ fs.files (o.pre ++ c!"/" ++ o.root ++ c!".sources")) (x : Str)
    (h1 : x ≠ o.pre ++ c!"/" ++ o.root ++ c!".cpp") (h2 : x ≠ o.pre ++ c!"/" ++ o.root ++ c!".sources")
    (h3 : x ≠ o.pre ++ c!"/" ++ o.root ++ c!".modules") : fs'.files x = final.files x := by
  obtain ⟨st, bs, files, fs1, fs2, h⟩ := ends_done h
  have hn' : bs.length + 1 < 2 ^ 32 := by have := h.length; omega
  have hpl := h.planned hw hn' hd hl
  have hb : Between fs final fs (outsOf U.E.cfg o bs files) := ⟨fun _ hdd => hdd, hpl.dirs, fun _ _ => rfl⟩
  obtain ⟨hq, hb'⟩ := h.steps hw hn' hd hl hb hp hm
  have ho := h.order_steps hw hn' hd hl hs hb hp hm
  by_cases hx : ∃ t, (x, t) ∈ outsOf U.E.cfg o bs files
  · obtain ⟨t, hx⟩ := hx
    rw [hpl.new x t hx]
    exact h.sources_first hs ho hq hc hx (by unfold slotName rootPath; simpa using h1) h2 h3
  · have hx' : ∀ t, (x, t) ∉ outsOf U.E.cfg o bs files := fun t ht => hx ⟨t, ht⟩
    rw [hb'.rest x hx', hpl.same x hx']

/-- Operations of a process, without other characters reaching the files than those that have to. -/
def execOps : Nat → Proc × FS → Proc × FS
  | 0, a => a
  | n + 1, (p, fs) => match p.todo with
    | [] => (p, fs)
    | op :: r => execOps n (op.exec { p with todo := r } fs)

theorem Moves.trans {a b c : Proc × FS} (h : Moves a b) (h' : Moves b c) : Moves a c := by
  induction h' with
  | refl => exact h
  | tail _ hs ih => exact .tail ih hs

theorem execOps_moves (n : Nat) (a : Proc × FS) : Moves a (execOps n a) := by
  induction n generalizing a with
  | zero => exact .refl
  | succ n ih =>
    obtain ⟨p, fs⟩ := a
    rw [execOps]
    split
    · exact .refl
    · rename_i op r ht
      exact Moves.trans (.tail .refl (.op ht)) (ih _)

/-- The files after an exception. -/
def Ex.afterThrow : Option Outcome → Option FS
  | some (.thrown fs) => some fs
  | _ => none

theorem Ex.afterThrow_some {out : Option Outcome} {fs : FS} (h : Ex.afterThrow out = some fs) : out = some (.thrown fs) := by
  unfold Ex.afterThrow at h
  split at h
  · cases h; rfl
  · cases h

/-- The process for a run of a program. -/
def Ex.proc (U : TransUnit) (o : Opts) : Proc := ⟨(U.programF 20 o).getD [], fun _ => none, none⟩

theorem Ex.proc_starts {U : TransUnit} {o : Opts} (h : (U.programF 20 o).isSome = true) : U.Starts o (Ex.proc U o) := by
  obtain ⟨l, hl⟩ := Option.isSome_iff_exists.1 h
  exact ⟨20, by unfold Ex.proc; rw [hl]; rfl, fun _ => rfl, rfl⟩

theorem Ex.moves_to {U : TransUnit} {o : Opts} {fs : FS} (n : Nat) {P : FS → Bool}
    (h : ((U.programF 20 o).isSome && P (execOps n (Ex.proc U o, fs)).2) = true) : ∃ p q fs', U.Starts o p ∧ Moves (p, fs) (q, fs') ∧ P fs' = true := by
  rw [Bool.and_eq_true] at h
  exact ⟨_, _, _, Ex.proc_starts h.1, execOps_moves n _, h.2⟩

/-- C89, for the root module this is false: a run can be interrupted when both lists are complete and the root module, which is the first of
the sources listed, is empty. -/
theorem C89_root_module_last : ∃ p q fs', Ex.unit.Starts (Ex.opts 1000) p ∧ Moves (p, Ex.fsEmpty) (q, fs') ∧
    (fs'.files c!"out/mod.sources" == some c!"mod.cpp\nn.cpp\nm.cpp\nn_1.cpp\n" && fs'.files c!"out/mod.modules" == some c!"m n " &&
      fs'.files c!"out/mod.cpp" == some []) = true :=
  Ex.moves_to 23 (by decide +kernel)

/-- The hypotheses of C89 are met: this run has been interrupted when the sources were complete; when it is started again and has done
everything, the files are those of a run without interruption. -/
example : Ex.fsEmpty.WF ∧ Ex.unit.visits.length + 1 < 2 ^ 32 ∧ DistinctNames Ex.unit (Ex.opts 1000) ∧ ListsFree Ex.fsEmpty (Ex.opts 1000) ∧
    (Ex.opts 1000).single = false ∧ (∃ final, Ex.unit.Ends (Ex.opts 1000) Ex.fsEmpty (.done final)) ∧
    ∃ p q fs', Ex.unit.Starts (Ex.opts 1000) p ∧ Moves (p, Ex.fsEmpty) (q, fs') ∧
      ((fs'.files c!"out/n_1.cpp").isSome && fs'.files c!"out/mod.sources" == some [] && Ex.fsEmpty.files c!"out/mod.sources" == none) = true :=
  ⟨Ex.fsEmpty_wf, by decide, Ex.unit_distinct 1000, .inr ⟨by decide, by decide⟩, rfl, Ex.unit_done.imp fun _ h => h.1, Ex.moves_to 20 (by decide +kernel)⟩

/-- An output directory in which one of the sources of the example cannot be written, because a directory has its name. -/
def Ex.fsTaken : FS := ⟨fun _ => none, fun d => d == c!"out" || d == c!"out/n_1.cpp", []⟩

/-- The hypotheses of `C89_failed_runs` are met: a run that ends because of a missing base, and one that ends with an exception after it has
written some of the sources. -/
example : (∃ p q fs' failed, Ex.nestedBase.Starts (Ex.opts 1000) p ∧ Moves (p, Ex.fsOld) (q, fs') ∧ q.todo = [] ∧
      Ex.nestedBase.Ends (Ex.opts 1000) Ex.fsOld (.exit failed)) ∧
    ∃ p q fs' failed, Ex.unit.Starts (Ex.opts 1000) p ∧ Moves (p, Ex.fsTaken) (q, fs') ∧ q.todo = [] ∧
      Ex.unit.Ends (Ex.opts 1000) Ex.fsTaken (.thrown failed) ∧ (failed.files c!"out/m.cpp").isSome = true := by
  constructor
  · obtain ⟨failed, h, _⟩ : ∃ fs', Ex.nestedBase.Ends (Ex.opts 1000) Ex.fsOld (.exit fs') ∧ (fun _ => true) fs' = true :=
      Ex.ends_afterExit (n := 20) (by decide +kernel)
    obtain ⟨q, fs', hm, ht⟩ := can_finish (Ex.proc Ex.nestedBase (Ex.opts 1000)) Ex.fsOld
    exact ⟨_, q, fs', failed, Ex.proc_starts (by decide +kernel), hm, ht, h⟩
  · obtain ⟨failed, h, h'⟩ : ∃ fs', Ex.unit.Ends (Ex.opts 1000) Ex.fsTaken (.thrown fs') ∧ (fs'.files c!"out/m.cpp").isSome = true := by
      have : ∃ fs', Ex.afterThrow (Ex.unit.runF 20 (Ex.opts 1000) Ex.fsTaken) = some fs' ∧ (fs'.files c!"out/m.cpp").isSome = true := by
        have h : (Ex.afterThrow (Ex.unit.runF 20 (Ex.opts 1000) Ex.fsTaken)).any (fun fs => (fs.files c!"out/m.cpp").isSome) = true := by decide +kernel
        exact Option.any_eq_true _ _ |>.1 h
      obtain ⟨fs', e, h'⟩ := this
      exact ⟨fs', ⟨20, Ex.afterThrow_some e⟩, h'⟩
    obtain ⟨q, fs', hm, ht⟩ := can_finish (Ex.proc Ex.unit (Ex.opts 1000)) Ex.fsTaken
    exact ⟨_, q, fs', failed, Ex.proc_starts (by decide +kernel), hm, ht, h, h'⟩

/-! ## C90: runs at the same time -/

section
variable {ι : Type} {U : ι → TransUnit} {o : ι → Opts} {fs : FS} {final : ι → FS}

/-- What holds at any time. -/
theorem Spec.Together.inv (h : Together U o fs final) {w w' : World ι} (hb : Begin U o fs w) (hs : Schedule w w') :
    ∃ outs : ι → List (Str × Str), (∀ i, Planned (U i) (o i) fs (final i) (outs i)) ∧ (∀ i x, Writes (U i) (o i) x ↔ ∃ t, (x, t) ∈ outs i) ∧
      (∀ i, PInv fs.files (fun d => fs.dirs d = true ∨ ∃ i, (final i).dirs d = true) (outs i) (w'.procs i) w'.fs) ∧
      ∀ x, (∀ i, ¬ Writes (U i) (o i) x) → w'.fs.files x = fs.files x := by
  have key : ∀ i, ∃ r : BindState × List SortItem × List OutFile × FS × FS, RunDone (U i) (o i) fs (final i) r.1 r.2.1 r.2.2.1 r.2.2.2.1 r.2.2.2.2 := by
    intro i
    obtain ⟨st, bs, files, fs1, fs2, hr⟩ := ends_done (h.alone i)
    exact ⟨(st, bs, files, fs1, fs2), hr⟩
  obtain ⟨r, hr⟩ := Classical.axiomOfChoice key
  have hn : ∀ i, (r i).2.1.length + 1 < 2 ^ 32 := fun i => by have := (hr i).length; have := h.small i; omega
  have hpl := fun i => (hr i).planned h.wf (hn i) (h.names i) (h.lists i)
  have hwr : ∀ i x, Writes (U i) (o i) x ↔ ∃ t, (x, t) ∈ outsOf (U i).E.cfg (o i) (r i).2.1 (r i).2.2.1 := fun i x =>
    ⟨writes_outs (hr i), fun ⟨t, ht⟩ => (hr i).writes h.wf (hn i) (h.names i) (h.lists i) ht⟩
  refine ⟨fun i => outsOf (U i).E.cfg (o i) (r i).2.1 (r i).2.2.1, hpl, hwr, ?_⟩
  obtain ⟨h1, h2⟩ := world_inv (f0 := fs.files) (D := fun d => fs.dirs d = true ∨ ∃ i, (final i).dirs d = true)
    (O := fun x => ∃ i, Writes (U i) (o i) x) (outs := fun i => outsOf (U i).E.cfg (o i) (r i).2.1 (r i).2.2.1) (w := w) (w' := w') (by
      rintro x ⟨i, hx⟩ hdd
      obtain ⟨t, ht⟩ := (hwr i x).1 hx
      have hi := (hpl i).free ht
      rcases hdd with hdd | ⟨j, hdd⟩
      · rw [(hpl i).dirs x hdd] at hi; cases hi
      · by_cases hij : i = j
        · subst hij; rw [hi] at hdd; cases hdd
        · rw [h.dirs i j hij x hx] at hdd; cases hdd) (by
      rintro d (hdd | ⟨i, hdd⟩)
      · exact h.wf d hdd
      · exact (hpl i).clear ⟨fun _ hdd => hdd, (hpl i).dirs, fun _ _ => rfl⟩ hdd) (fun i x t hx => ⟨i, (hwr i x).2 ⟨t, hx⟩⟩) (by
      intro i j hij x t t' hx hx'
      exact h.files i j hij x ((hwr i x).2 ⟨t, hx⟩) ((hwr j x).2 ⟨t', hx'⟩)) hs (by
      intro i
      rw [hb.1]
      exact (hr i).start h.wf (hn i) (h.names i) (fun d hdd => .inr ⟨i, hdd⟩) (fun _ hdd => hdd) (hb.2 i)) (by
      rw [hb.1]
      exact ⟨fun d hdd => .inl hdd, fun _ _ => rfl⟩)
  exact ⟨h1, fun x hx => h2.files x (fun ⟨i, hi⟩ => hx i hi)⟩

/-- C90. Runs with different files can be made at the same time: whatever the schedule, none of them ends before its time. -/
theorem C90_no_failure (h : Together U o fs final) (w w' : World ι) (hb : Begin U o fs w) (hs : Schedule w w') (i : ι) :
    (w'.procs i).ended = none := by
  obtain ⟨_, _, _, h3, _⟩ := h.inv hb hs
  exact (h3 i).running

/-- C90. When a run has done everything, all its files are as if it had been made alone, whether or not the others have finished, or been
interrupted. -/
theorem C90_as_if_alone (h : Together U o fs final) (w w' : World ι) (hb : Begin U o fs w) (hs : Schedule w w') (i : ι)
    (hi : (w'.procs i).todo = []) (x : Str) (hx : ∀ j, j ≠ i → ¬ Writes (U j) (o j) x) : w'.fs.files x = (final i).files x := by
  obtain ⟨outs, h1, h2, h3, h4⟩ := h.inv hb hs
  by_cases hxi : ∃ t, (x, t) ∈ outs i
  · obtain ⟨t, ht⟩ := hxi
    rw [(h3 i).done hi ht, (h1 i).new x t ht]
  · have hxi' : ∀ t, (x, t) ∉ outs i := fun t ht => hxi ⟨t, ht⟩
    rw [(h1 i).same x hxi']
    apply h4
    intro j
    by_cases hij : j = i
    · subst hij; exact fun hw => hxi ((h2 j x).1 hw)
    · exact hx j hij

/-- C90. At any time a file has its old content, or a beginning of the text that the run it belongs to gives it when made alone; files that
belong to none are unchanged. -/
theorem C90_old_or_begun (h : Together U o fs final) (w w' : World ι) (hb : Begin U o fs w) (hs : Schedule w w') (x : Str) :
    w'.fs.files x = fs.files x ∨
    ∃ i t u, Writes (U i) (o i) x ∧ (final i).files x = some t ∧ w'.fs.files x = some u ∧ u <+: t := by
  obtain ⟨outs, h1, h2, h3, h4⟩ := h.inv hb hs
  by_cases hx : ∃ i, Writes (U i) (o i) x
  · obtain ⟨i, hx⟩ := hx
    obtain ⟨t, ht⟩ := (h2 i x).1 hx
    rcases (h3 i).old_or_begun ht with e | ⟨u, e, hu⟩
    · exact .inl e
    · exact .inr ⟨i, t, u, hx, (h1 i).new x t ht, e, hu⟩
  · exact .inl (h4 x (fun i hi => hx ⟨i, hi⟩))
end

theorem Spec.WorldStep.weight {ι : Type} {w w' : World ι} (h : WorldStep w w') (i : ι) :
    (w'.procs i).weight < (w.procs i).weight ∨ w'.procs i = w.procs i := by
  cases h with
  | @step procs' fs' j hp hothers =>
    by_cases hij : i = j
    · subst hij; exact .inl hp.weight
    · exact .inr (hothers i hij)

/-- C90. No schedule keeps a run busy forever: from some time on it makes no more steps. If it has something to do then, it has been
stopped, for at any time it can make a step. -/
theorem C90_ends {ι : Type} (f : Nat → World ι) (hf : ∀ n, WorldStep (f n) (f (n + 1))) (i : ι) : ∃ N, ∀ n, N ≤ n → (f n).procs i = (f N).procs i := by
  have key : ∀ k N, ((f N).procs i).weight ≤ k → ∃ M, ∀ n, M ≤ n → (f n).procs i = (f M).procs i := by
    intro k
    induction k with
    | zero =>
      intro N hN
      refine ⟨N, fun n hn => ?_⟩
      obtain ⟨d, rfl⟩ := Nat.exists_eq_add_of_le hn
      induction d with
      | zero => rfl
      | succ d ih =>
        have ih := ih (by omega)
        rcases (hf (N + d)).weight i with h | h
        · rw [ih] at h; omega
        · rw [← ih]; exact h
    | succ k ihk =>
      intro N hN
      by_cases hc : ∃ n, N ≤ n ∧ ((f n).procs i).weight ≤ k
      · obtain ⟨n, _, hk⟩ := hc
        exact ihk n hk
      · refine ⟨N, fun n hn => ?_⟩
        obtain ⟨d, rfl⟩ := Nat.exists_eq_add_of_le hn
        induction d with
        | zero => rfl
        | succ d ih =>
          have ih := ih (by omega)
          rcases (hf (N + d)).weight i with h | h
          · rw [ih] at h
            exact absurd ⟨N + d + 1, by omega, by omega⟩ hc
          · rw [← ih]; exact h
  exact key _ 0 (Nat.le_refl _)

theorem C90_progress {ι : Type} (w : World ι) (i : ι) (h : (w.procs i).todo ≠ []) : ∃ w', WorldStep w w' ∧ w'.procs i ≠ w.procs i := by
  classical
  obtain ⟨b, hb⟩ := progress w.fs h
  refine ⟨⟨fun j => if j = i then b.1 else w.procs j, b.2⟩, .step i (by simpa using hb) (fun j hj => by simp [hj]), ?_⟩
  intro e
  have := hb.weight
  simp only [if_true] at e
  rw [e] at this
  simp only at this
  omega

/-! ### Modules with numbered sources -/

/-- The files of a run with `--flat`. -/
theorem flat_names {U : TransUnit} {o : Opts} {fs final : FS} (hn : U.visits.length + 1 < 2 ^ 32) (hf : o.flat = true) (h : U.Ends o fs (.done final))
    {x : Str} (hx : Writes U o x) : ∃ ext, x = o.pre ++ c!"/" ++ (o.root ++ ext) ∧
      (ext = c!".cpp" ∨ (∃ n : Nat, ext = c!"_" ++ natStr n ++ c!".cpp") ∨ ext = c!".sources" ∨ ext = c!".modules") := by
  obtain ⟨st, bs, files, fs1, fs2, h⟩ := ends_done h
  have hn' : bs.length + 1 < 2 ^ 32 := by have := h.length; omega
  obtain ⟨t, ht⟩ := writes_outs h hx
  unfold outsOf at ht
  rcases List.mem_cons.1 ht with ht | ht
  · injection ht with e _
    exact ⟨c!".cpp", e, .inl rfl⟩
  rcases List.mem_append.1 ht with ht | ht
  · obtain ⟨p, hp, e⟩ := List.mem_map.1 ht
    injection e with e _
    unfold sourceFiles at hp
    split at hp
    · cases hp
    · obtain ⟨F, hF, rfl⟩ := List.mem_map.1 hp
      obtain ⟨n, e'⟩ := C21_names_flat _ o hf bs hn' files h.gen F hF
      refine ⟨c!"_" ++ natStr n ++ c!".cpp", ?_, .inr (.inl ⟨n, rfl⟩)⟩
      rw [← e]
      show _ ++ F.name = _
      rw [e']; simp
  · split at ht
    · cases ht
    · simp only [List.mem_cons, List.not_mem_nil, or_false] at ht
      rcases ht with ht | ht
      · injection ht with e _
        exact ⟨c!".sources", by rw [e]; simp, .inr (.inr (.inl rfl))⟩
      · injection ht with e _
        exact ⟨c!".modules", by rw [e]; simp, .inr (.inr (.inr rfl))⟩

/-- The ends of the names of files. -/
def IsExt (ext : Str) : Prop := ext = c!".cpp" ∨ (∃ n : Nat, ext = c!"_" ++ natStr n ++ c!".cpp") ∨ ext = c!".sources" ∨ ext = c!".modules"

theorem ext_roots {a b e f : Str} (he : IsExt e) (hf : IsExt f) (h : a ++ e = b ++ f) :
    a = b ∨ (∃ n, a = b ++ c!"_" ++ natStr n) ∨ ∃ n, b = a ++ c!"_" ++ natStr n := by
  have cancel : ∀ {u v : Str}, u ++ c!".cpp" = v ++ c!".cpp" → u = v := List.append_cancel_right
  have same : ∀ {u v f : Str}, f.length = 8 → (f = c!".sources" ∨ f = c!".modules") → u ++ c!".sources" = v ++ f → u = v := by
    intro u v f hl hf h
    exact (List.append_inj' h (by rw [hl]; rfl)).1
  rcases he with rfl | ⟨n, rfl⟩ | he
  · rcases hf with rfl | ⟨m, rfl⟩ | hf
    · exact .inl (cancel h)
    · exact .inr (.inl ⟨m, cancel (by rw [h]; simp)⟩)
    · rcases hf with rfl | rfl
      · exact absurd h (cpp_ne (by decide) (by decide))
      · exact absurd h (cpp_ne (by decide) (by decide))
  · rcases hf with rfl | ⟨m, rfl⟩ | hf
    · exact .inr (.inr ⟨n, cancel (by rw [← h]; simp)⟩)
    · have h' : (a ++ c!"_" ++ natStr n) ++ c!".cpp" = (b ++ c!"_" ++ natStr m) ++ c!".cpp" := by simpa using h
      have := cancel h'
      exact .inl (split_last_inj (natStr_no_underscore n) (natStr_no_underscore m) (by simpa using this)).1
    · have h' : (a ++ c!"_" ++ natStr n) ++ c!".cpp" = b ++ f := by rw [← h]; simp
      rcases hf with rfl | rfl
      · exact absurd h' (cpp_ne (by decide) (by decide))
      · exact absurd h' (cpp_ne (by decide) (by decide))
  · rcases hf with rfl | ⟨m, rfl⟩ | hf
    · rcases he with rfl | rfl
      · exact absurd h.symm (cpp_ne (by decide) (by decide))
      · exact absurd h.symm (cpp_ne (by decide) (by decide))
    · have h' : (b ++ c!"_" ++ natStr m) ++ c!".cpp" = a ++ e := by rw [h]; simp
      rcases he with rfl | rfl
      · exact absurd h' (cpp_ne (by decide) (by decide))
      · exact absurd h' (cpp_ne (by decide) (by decide))
    · have : e.length = f.length := by rcases he with rfl | rfl <;> rcases hf with rfl | rfl <;> rfl
      exact .inl (List.append_inj' h this).1

/-- C90. With `--flat`, runs that write to the same directory have different files if no module has the name of another one, or that name
followed by `_` and a number. -/
theorem C90_flat {ι : Type} (U : ι → TransUnit) (o : ι → Opts) (fs : FS) (final : ι → FS) (dir : Str) (hw : fs.WF)
    (hn : ∀ i, (U i).visits.length + 1 < 2 ^ 32) (hl : ∀ i, ListsFree fs (o i)) (ha : ∀ i, (U i).Ends (o i) fs (.done (final i)))
    (hf : ∀ i, (o i).flat = true ∧ (o i).pre = dir ∧ '/' ∉ (o i).root)
    (hr : ∀ i j, i ≠ j → (o i).root ≠ (o j).root ∧ ∀ n : Nat, (o i).root ≠ (o j).root ++ c!"_" ++ natStr n) : Together U o fs final where
  wf := hw
  small := hn
  names := fun i => .inr (.inl (hf i).1)
  lists := hl
  alone := ha
  files := by
    intro i j hij x hx hx'
    obtain ⟨e, h1, he⟩ := flat_names (hn i) (hf i).1 (ha i) hx
    obtain ⟨f, h2, hf'⟩ := flat_names (hn j) (hf j).1 (ha j) hx'
    rw [h1, (hf i).2.1, (hf j).2.1] at h2
    rcases ext_roots he hf' (List.append_cancel_left h2) with h | ⟨n, h⟩ | ⟨n, h⟩
    · exact (hr i j hij).1 h
    · exact (hr i j hij).2 n h
    · exact (hr j i (Ne.symm hij)).2 n h
  dirs := by
    intro i j hij x hx
    obtain ⟨e, h1, he⟩ := flat_names (hn i) (hf i).1 (ha i) hx
    obtain ⟨st, bs, files, fs1, fs2, hi⟩ := ends_done (ha i)
    obtain ⟨st', bs', files', fs1', fs2', hj⟩ := ends_done (ha j)
    have hni : bs.length + 1 < 2 ^ 32 := by have := hi.length; have := hn i; omega
    have hnj : bs'.length + 1 < 2 ^ 32 := by have := hj.length; have := hn j; omega
    have hpl := hi.planned hw hni (.inr (.inl (hf i).1)) (hl i)
    obtain ⟨t, ht⟩ := writes_outs hi hx
    cases hc : (final j).dirs x with
    | false => rfl
    | true =>
      rcases (hj.finalDirs x).1 hc with hc | ⟨p, hp, hc⟩
      · have := hpl.free ht
        rw [hpl.dirs x hc] at this; cases this
      · unfold sourceFiles at hp
        split at hp
        · cases hp
        · obtain ⟨F, hF, rfl⟩ := List.mem_map.1 hp
          obtain ⟨n, e'⟩ := C21_names_flat _ (o j) (hf j).1 bs' hnj files' hj.gen F hF
          have hcpp : CppName F.name := ⟨_, e'⟩
          obtain ⟨r, h2⟩ := sourceDir_split hcpp.ne.1 hcpp.ne.2 hc
          rw [h1, (hf i).2.1, (hf j).2.1] at h2
          simp only [List.append_assoc] at h2
          have h3 := List.append_cancel_left (List.append_cancel_left h2)
          have : '/' ∈ F.name := by
            show '/' ∈ F.name
            have h3 : F.name = _ := h3
            rw [h3]; simp
          rw [e'] at this
          have digits : '/' ∉ natStr n := fun hm => absurd (natStr_digit hm) (by decide)
          simp [(hf j).2.2, digits] at this

/-- Two modules with numbered sources. -/
def Ex.flat (b : Bool) : Opts := { Ex.opts 1000 with flat := true, root := if b then c!"mod" else c!"other" }

/-- The hypotheses of C90 are met: two modules of the example program are made at the same time, with `+class m::T` for one of them. -/
theorem Ex.together : ∃ final, Together (fun b : Bool => if b then Ex.unit else wishing Ex.unit Ex.more) Ex.flat Ex.fsEmpty final ∧
    ((final true).files c!"out/mod_2.cpp").isSome = true := by
  obtain ⟨f1, h1, h1'⟩ : ∃ fs', Ex.unit.Ends (Ex.flat true) Ex.fsEmpty (.done fs') ∧ (fs'.files c!"out/mod_2.cpp").isSome = true :=
    Ex.ends_after (n := 20) (by decide +kernel)
  obtain ⟨f2, h2, _⟩ : ∃ fs', (wishing Ex.unit Ex.more).Ends (Ex.flat false) Ex.fsEmpty (.done fs') ∧ (fs'.files c!"out/other_2.cpp").isSome = true :=
    Ex.ends_after (n := 20) (by decide +kernel)
  refine ⟨fun b => if b then f1 else f2, C90_flat _ _ _ _ c!"out" Ex.fsEmpty_wf ?_ ?_ ?_ ?_ ?_, h1'⟩
  · intro b; cases b <;> decide
  · intro b; cases b <;> exact .inr ⟨by decide, by decide⟩
  · intro b
    cases b
    · exact h2
    · exact h1
  · intro b; cases b <;> exact ⟨rfl, rfl, by decide⟩
  · intro a b hab
    cases a <;> cases b
    · exact absurd rfl hab
    · exact ⟨by decide, fun n => by simp [Ex.flat]⟩
    · exact ⟨by decide, fun n => by simp [Ex.flat]⟩
    · exact absurd rfl hab

/-- Such processes can be started. -/
example : ∃ w : World Bool, Begin (fun b : Bool => if b then Ex.unit else wishing Ex.unit Ex.more) Ex.flat Ex.fsEmpty w :=
  ⟨⟨fun b => Ex.proc (if b then Ex.unit else wishing Ex.unit Ex.more) (Ex.flat b), Ex.fsEmpty⟩, rfl, by
    intro b
    cases b
    · exact Ex.proc_starts (by decide +kernel)
    · exact Ex.proc_starts (by decide +kernel)⟩

/-- C90, without `--flat` this is false: sources are named after headers, and not after the module. Two modules for the same headers in one
directory, even if one is made after the other, have sources in common; the second run changes those of the first one. -/
theorem C90_named_after_headers : ∃ fs1 fs2, Ex.unit.Ends (Ex.opts 1000) Ex.fsEmpty (.done fs1) ∧
    (wishing Ex.unit Ex.more).Ends { Ex.opts 1000 with root := c!"other" } fs1 (.done fs2) ∧
    fs2.files c!"out/mod.sources" = some c!"mod.cpp\nn.cpp\nm.cpp\nn_1.cpp\n" ∧ fs2.files c!"out/m.cpp" ≠ fs1.files c!"out/m.cpp" := by
  obtain ⟨fs1, h1, h⟩ : ∃ fs1, Ex.unit.Ends (Ex.opts 1000) Ex.fsEmpty (.done fs1) ∧
      (fun fs1 => (Ex.after ((wishing Ex.unit Ex.more).runF 20 { Ex.opts 1000 with root := c!"other" } fs1)).any (fun fs2 =>
        fs2.files c!"out/mod.sources" == some c!"mod.cpp\nn.cpp\nm.cpp\nn_1.cpp\n" && fs2.files c!"out/m.cpp" != fs1.files c!"out/m.cpp")) fs1 = true :=
    Ex.ends_after (n := 20) (by decide +kernel)
  obtain ⟨fs2, h2, h⟩ := Ex.ends_after (n := 20) h
  simp only [Bool.and_eq_true, beq_iff_eq, bne_iff_ne] at h
  exact ⟨fs1, fs2, h1, h2, h.1, h.2⟩

end Binder
