import Verif.Model.Steps
import Verif.Spec.Run

/-!
# Specification: interrupted runs and runs at the same time
-/

namespace Binder.Spec

/-- Any number of steps of a process. -/
inductive Moves : Proc × FS → Proc × FS → Prop where
  | refl {a} : Moves a a
  | tail {a b c} : Moves a b → ProcStep b c → Moves a c

/-- Several processes that share the files. -/
structure World (ι : Type) where
  procs : ι → Proc
  fs : FS

/-- One of the processes makes a step. -/
inductive WorldStep {ι : Type} : World ι → World ι → Prop where
  | step {w : World ι} {procs' : ι → Proc} {fs' : FS} (i : ι) : ProcStep (w.procs i, w.fs) (procs' i, fs') → (∀ j, j ≠ i → procs' j = w.procs j) →
      WorldStep w ⟨procs', fs'⟩

/-- Any schedule; a process that is not scheduled again has crashed, or been stopped. -/
inductive Schedule {ι : Type} : World ι → World ι → Prop where
  | refl {w} : Schedule w w
  | tail {w w' w''} : Schedule w w' → WorldStep w' w'' → Schedule w w''

/-- The run opens the file `x` for writing, at least if some files are there and others are not. -/
def Writes (U : TransUnit) (o : Opts) (x : Str) : Prop :=
  ∃ fs fs' l, (∀ p, fs.dirs p = true → fs.files p = none) ∧ U.Ends o fs (.done fs') ∧ fs'.writes = fs.writes ++ l ∧ x ∈ l

/-- Any number of runs, each of them interrupted at any time. -/
inductive Interrupted (U : TransUnit) (o : Opts) : FS → FS → Prop where
  | never {fs} : Interrupted U o fs fs
  | again {fs fs1 fs2 p q} : Interrupted U o fs fs1 → U.Starts o p → Moves (p, fs1) (q, fs2) → Interrupted U o fs fs2

/-- The two list files, if there are any, are not directories. -/
def ListsFree (fs : FS) (o : Opts) : Prop :=
  o.single = true ∨ fs.dirs (o.pre ++ c!"/" ++ o.root ++ c!".sources") = false ∧ fs.dirs (o.pre ++ c!"/" ++ o.root ++ c!".modules") = false

/-- Several runs that start on the same files, of which each alone would return with the files `final i`. No file that one of them may
write is one that another may write, or one of its directories. -/
structure Together {ι : Type} (U : ι → TransUnit) (o : ι → Opts) (fs : FS) (final : ι → FS) : Prop where
  wf : ∀ p, fs.dirs p = true → fs.files p = none
  small : ∀ i, (U i).visits.length + 1 < 2 ^ 32
  names : ∀ i, DistinctNames (U i) (o i)
  lists : ∀ i, ListsFree fs (o i)
  alone : ∀ i, (U i).Ends (o i) fs (.done (final i))
  files : ∀ i j, i ≠ j → ∀ x, Writes (U i) (o i) x → ¬ Writes (U j) (o j) x
  dirs : ∀ i j, i ≠ j → ∀ x, Writes (U i) (o i) x → (final j).dirs x = false

/-- The runs are about to start. -/
def Begin {ι : Type} (U : ι → TransUnit) (o : ι → Opts) (fs : FS) (w : World ι) : Prop := w.fs = fs ∧ ∀ i, (U i).Starts (o i) (w.procs i)

end Binder.Spec
