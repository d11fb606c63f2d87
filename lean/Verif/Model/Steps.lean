import Verif.Model.Run

/-!
# A run, one operation on files after the other

`Context::generate` (context.cpp:323-494) and `update_source_file` (util.cpp:128-153) as a sequence of operations, with output streams
that hold text back: a run can be interrupted, or overtaken by another process, between any two of them. Simplifications: `mkdir -p`,
the reading of an old file and the opening of a file are one operation each; characters reach the file in order.
-/

namespace Binder

/-- An open `std::ofstream`: its file, the number of characters that have reached it, and those that have not. -/
structure Stream where
  name : Str
  pos : Nat
  buffer : Str

/-- The output streams of the program: context.cpp:337, util.cpp:147, context.cpp:488 and 491. -/
inductive Slot where
  | root
  | source
  | sources
  | modules
deriving DecidableEq

/-- How a process ends before its time: by an exception that nobody catches, or by `std::exit(1)` (context.cpp:304). -/
inductive Ending where
  | thrown
  | exit
deriving DecidableEq

/-- One operation. -/
inductive FileOp where
  /-- `std::ofstream f(name);`, and with `checked` also `if( f.fail() ) throw`. -/
  | openFile (s : Slot) (name : Str) (checked : Bool)
  /-- `f << text;` -/
  | put (s : Slot) (text : Str)
  /-- The destructor of the stream. -/
  | close (s : Slot)
  /-- util.cpp:137-138. -/
  | mkdir (path : Str)
  /-- util.cpp:140-151: read the old file and write it if it has another content. -/
  | refresh (name code : Str)
  /-- The end of the process. -/
  | stop (how : Ending)

/-- A process: what it has to do, its streams, and how it has ended before its time. -/
structure Proc where
  todo : List FileOp
  streams : Slot → Option Stream
  ended : Option Ending

/-- Replace one stream. -/
def setStream (f : Slot → Option Stream) (s : Slot) (v : Option Stream) : Slot → Option Stream := fun t => if t = s then v else f t

/-- Characters written at a position of a file; a gap is filled with zeros, as by the operating system. -/
def patch (old : Str) (pos : Nat) (text : Str) : Str :=
  old.take pos ++ List.replicate (pos - old.length) '\x00' ++ text ++ old.drop (pos + text.length)

/-- Characters of a stream reach its file. -/
def FS.writeAt (fs : FS) (name : Str) (pos : Nat) (text : Str) : FS :=
  if text.isEmpty then fs
  else { fs with files := fun x => if x = name then some (patch ((fs.files name).getD []) pos text) else fs.files x }

/-- One operation of the process `p`, which has been taken from its list. -/
def FileOp.exec (op : FileOp) (p : Proc) (fs : FS) : Proc × FS :=
  match op with
  | .openFile s name checked => match writeFile fs name [] with
    | some fs => ({ p with streams := setStream p.streams s (some ⟨name, 0, []⟩) }, fs)
    | none => if checked then ({ p with todo := [], ended := some .thrown }, fs) else ({ p with streams := setStream p.streams s none }, fs)
  | .put s text => match p.streams s with
    | some h => ({ p with streams := setStream p.streams s (some { h with buffer := h.buffer ++ text }) }, fs)
    | none => (p, fs)
  | .close s => match p.streams s with
    | some h => ({ p with streams := setStream p.streams s none }, fs.writeAt h.name h.pos h.buffer)
    | none => (p, fs)
  | .mkdir path => match mkdirP fs path with
    | some fs => (p, fs)
    | none => ({ p with todo := [], ended := some .thrown }, fs)
  | .refresh name code =>
    if (fs.files name).getD [] != code then
      ({ p with todo := .openFile .source name true :: .put .source code :: .close .source :: p.todo }, fs)
    else (p, fs)
  | .stop how => ({ p with todo := [], ended := some how }, fs)

/-- What can happen next: the next operation, or some characters of an open stream reach the file. -/
inductive ProcStep : Proc × FS → Proc × FS → Prop where
  | op {p : Proc} {fs : FS} {op : FileOp} {rest : List FileOp} : p.todo = op :: rest → ProcStep (p, fs) (op.exec { p with todo := rest } fs)
  | flush {p : Proc} {fs : FS} {s : Slot} {h : Stream} {a b : Str} : p.streams s = some h → h.buffer = a ++ b → a ≠ [] →
      ProcStep (p, fs) ({ p with streams := setStream p.streams s (some ⟨h.name, h.pos + a.length, b⟩) }, fs.writeAt h.name h.pos a)

/-- The operations for one generated file, context.cpp:446-447. -/
def fileOps (c : Config) (o : Opts) (f : OutFile) : List FileOp :=
  if o.single then [.put .root (c!"// File: " ++ f.name ++ c!"\n" ++ f.text c o ++ c!"\n\n")]
  else [.mkdir (sourceDir o.pre f.name), .refresh (o.pre ++ c!"/" ++ f.name) (f.text c o)]

/-- The operations at the end, context.cpp:472-494. The streams of lines 488 and 491 are closed in reverse order at the end of their block,
that of line 337 at the end of the function. -/
def endOps (c : Config) (o : Opts) (namespaces : List Str) (files : List OutFile) : List FileOp :=
  .put .root (rootText c o namespaces (functionNames files)) ::
  if o.single then
    [.put .root (c!"\n// Source list file: " ++ (o.pre ++ c!"/" ++ o.root) ++ c!".sources\n" ++
        (sourcesOf o files).flatMap (fun s => c!"// " ++ s ++ c!"\n") ++
        c!"\n// Modules list file: " ++ (o.pre ++ c!"/" ++ o.root) ++ c!".modules\n// " ++ modulesText namespaces ++ c!"\n"),
     .close .root]
  else
    [.openFile .sources (o.pre ++ c!"/" ++ o.root ++ c!".sources") false, .put .sources (sourcesText o files),
     .openFile .modules (o.pre ++ c!"/" ++ o.root ++ c!".modules") false, .put .modules (modulesText namespaces),
     .close .modules, .close .sources, .close .root]

/-- The operations of `Context::generate` if sorting succeeds. -/
def runOps (c : Config) (o : Opts) (bs : List SortItem) (files : List OutFile) : List FileOp :=
  .openFile .root (rootPath o) true :: (files.flatMap (fileOps c o) ++ endOps c o (allNestedNamespaces bs) files)

/-- The operations of `Context::generate`; `none` means that `n` steps are not enough for some loop. Nothing in it depends on files. -/
def generateOpsF (n : Nat) (c : Config) (o : Opts) (offers : List Decl) : Option (List FileOp) :=
  let r := register offers
  match Loop.run (bindStep r) n (bindStart r) with
  | none => none
  | some st =>
    match Loop.run sortStep n (sortInput r st) with
    | none => none
    | some none => some [.openFile .root (rootPath o) true, .stop .exit]
    | some (some bs) =>
      match Loop.run (genStep c o bs) n GenState.init with
      | none => none
      | some files => some (runOps c o bs files)

/-- The operations of a run, as `TransUnit.runF`. -/
def TransUnit.programF (U : TransUnit) (n : Nat) (o : Opts) : Option (List FileOp) :=
  if U.conflictIn [] (U.visits.filter U.offered) then some [.stop .thrown] else generateOpsF n U.E.cfg o U.offers

/-- The process is about to start the run. -/
def TransUnit.Starts (U : TransUnit) (o : Opts) (p : Proc) : Prop :=
  ∃ n, U.programF n o = some p.todo ∧ (∀ s, p.streams s = none) ∧ p.ended = none

end Binder
