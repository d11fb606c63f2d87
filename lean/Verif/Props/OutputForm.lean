import Verif.Spec.OutputForm
import Verif.Lemmas.OutputForm
import Verif.Props.Import

/-!
# C83: the form of the output does not change the module
-/

namespace Binder

open Cxx Spec

theorem works_stmtOf (U : TransUnit) (p : Piece) : (stmtOf U p).works = p.kept := by cases p <;> rfl

theorem worked_sources (U : TransUnit) (o : Opts) (files : List OutFile) :
    worked (files.map (sourceOf U o)) = ((files.flatMap (·.body)).filter Piece.kept).map (stmtOf U) := by
  unfold worked
  rw [List.flatMap_map, show (files.flatMap fun F => (sourceOf U o F).stmts) = (files.flatMap (·.body)).map (stmtOf U) by
    rw [List.map_flatMap]; rfl, List.filter_map]
  congr 1
  apply List.filter_congr
  intro p _
  exact works_stmtOf U p

theorem importOps_worked (E : Env) (srcs : List Source) : importOps E srcs = (worked srcs).flatMap (Stmt.ops E) := by
  unfold importOps worked
  rw [← List.flatMap_assoc]
  generalize srcs.flatMap Source.stmts = l
  induction l with
  | nil => rfl
  | cons s l ih => cases s <;> simp [List.filter_cons, Stmt.works, Stmt.ops, ih]

theorem RunDone.same {U : TransUnit} {o o' : Opts} {fs fs' gs gs' : FS} {st st' : BindState} {bs bs' : List SortItem} {files files' : List OutFile}
    {fs1 fs2 gs1 gs2 : FS} (h : RunDone U o fs fs' st bs files fs1 fs2) (h' : RunDone U o' gs gs' st' bs' files' gs1 gs2) : bs = bs' := by
  have e := h.bind.unique h'.bind
  subst e
  exact Option.some.inj (h.sort.unique h'.sort)

/-- C83. Two runs for the same program and the same configuration that return, with whatever options for the output and whatever files there
were before: the root modules run the same statements in the same order, apart from traces, and make the same modules. So the imports have the
same effect, including errors. -/
theorem C83_same_module (U : TransUnit) (o o' : Opts) (fs fs' gs gs' : FS) (hw : fs.WF) (hw' : gs.WF) (hn : U.visits.length + 1 < 2 ^ 32)
    (hd : DistinctNames U o) (hd' : DistinctNames U o') (h : U.Ends o fs (.done fs')) (h' : U.Ends o' gs (.done gs')) :
    ∃ srcs srcs' root root' pairs, Generated U o fs fs' srcs ∧ Generated U o' gs gs' srcs' ∧ worked srcs = worked srcs' ∧
      fs'.files (rootPath o) = some root ∧ gs'.files (rootPath o') = some root' ∧ MakesModules root pairs ∧ MakesModules root' pairs ∧
      importModule pairs (importOps U.E srcs) = importModule pairs (importOps U.E srcs') := by
  obtain ⟨st, bs, files, fs1, fs2, h⟩ := ends_done h
  obtain ⟨st', bs', files', gs1, gs2, h'⟩ := ends_done h'
  have e := h.same h'
  subst e
  have hn' : bs.length + 1 < 2 ^ 32 := by have := h.length; omega
  have hroot := (congrArg (fun x : FS => x.files (rootPath o)) h.finish).trans (by rw [finishRun_root])
  have hroot' := (congrArg (fun x : FS => x.files (rootPath o')) h'.finish).trans (by rw [finishRun_root])
  have hwork : worked (files.map (sourceOf U o)) = worked (files'.map (sourceOf U o')) := by
    rw [worked_sources, worked_sources, gen_pieces hn' h.gen, gen_pieces hn' h'.gen]
  refine ⟨_, _, _, _, subModules (allNestedNamespaces bs), generated_of_done h hw hn hd, generated_of_done h' hw' hn hd', hwork, hroot, hroot',
    (makesModules_root U.E.cfg o (allNestedNamespaces bs) files).right _, (makesModules_root U.E.cfg o' (allNestedNamespaces bs) files').right _, ?_⟩
  rw [importOps_worked, importOps_worked, hwork]

/-- C83. A run that returns with some options does not end with an error about a missing base with others. -/
theorem C83_same_end (U : TransUnit) (o o' : Opts) (fs fs' gs gs' : FS) (h : U.Ends o fs (.done fs')) : ¬ U.Ends o' gs (.exit gs') := by
  intro h'
  obtain ⟨st, bs, files, fs1, fs2, h⟩ := ends_done h
  obtain ⟨_, _, st', hb, hs⟩ := ends_exit h'
  have e := h.bind.unique hb
  subst e
  cases h.sort.unique hs

/-- The options `--single-file`, `--flat`, `--trace` and another limit for the size of files. -/
def Ex.otherForm : Opts := { Ex.opts 1 with root := c!"other", single := true, flat := true, trace := true }

/-- The hypotheses of `C83_same_module` are met: the example program, with three small files and with all code in the root module. -/
example : Ex.fsEmpty.WF ∧ Ex.unit.visits.length + 1 < 2 ^ 32 ∧ DistinctNames Ex.unit (Ex.opts 1000) ∧ DistinctNames Ex.unit Ex.otherForm ∧
    (∃ fs', Ex.unit.Ends (Ex.opts 1000) Ex.fsEmpty (.done fs')) ∧
    ∃ fs', Ex.unit.Ends Ex.otherForm Ex.fsEmpty (.done fs') ∧
      ((fs'.files c!"out/n_1.cpp").isNone && (fs'.files c!"out/other.cpp").isSome && (fs'.files c!"out/mod.cpp").isNone) = true :=
  ⟨Ex.fsEmpty_wf, by decide, Ex.unit_distinct 1000, .inl rfl, Ex.unit_done.imp fun _ h => h.1, Ex.ends_after (n := 20) (by decide +kernel)⟩

end Binder
