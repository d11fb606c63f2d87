import Verif.Lemmas.StepsPlan

/-!
# Processes and schedules
-/

namespace Binder

open Spec

section
variable {U : TransUnit} {o : Opts} {fs fs' fs1 fs2 : FS} {st : BindState} {bs : List SortItem} {files : List OutFile}

theorem finishRun_lists (c : Config) (bs : List SortItem) (files : List OutFile) {fs : FS} (hs : o.single = false)
    (h1 : fs.dirs (o.pre ++ c!"/" ++ o.root ++ c!".sources") = false) (h2 : fs.dirs (o.pre ++ c!"/" ++ o.root ++ c!".modules") = false)
    (hp : fs.dirs (parentDir (rootPath o)) = true) :
    (finishRun c o bs files fs).writes = fs.writes ++ [o.pre ++ c!"/" ++ o.root ++ c!".sources", o.pre ++ c!"/" ++ o.root ++ c!".modules"] := by
  have e : rootPath o = (o.pre ++ c!"/" ++ o.root) ++ c!".cpp" := by unfold rootPath; simp
  rw [e, parentDir_ext (by decide)] at hp
  have hps : fs.dirs (parentDir (o.pre ++ c!"/" ++ o.root ++ c!".sources")) = true := by rw [parentDir_ext (by decide)]; exact hp
  have hpm : fs.dirs (parentDir (o.pre ++ c!"/" ++ o.root ++ c!".modules")) = true := by rw [parentDir_ext (by decide)]; exact hp
  have key : ∀ (g : FS) (name text : Str), g.dirs name = false → g.dirs (parentDir name) = true → (g.tryWrite name text).writes = g.writes ++ [name] := by
    intro g name text a b
    unfold FS.tryWrite writeFile
    rw [a, b]; rfl
  unfold finishRun
  rw [hs]
  simp only [Bool.false_eq_true, if_false]
  rw [key _ _ _ (by rw [tryWrite_dirs]; exact h2) (by rw [tryWrite_dirs]; exact hpm), key _ _ _ (by exact h1) (by exact hps), List.append_assoc]
  rfl

/-- Every file of the run is opened for writing if it is missing. -/
theorem RunDone.writes (h : RunDone U o fs fs' st bs files fs1 fs2) (hw : fs.WF) (hn : bs.length + 1 < 2 ^ 32) (hd : DistinctNames U o)
    (hl : ListsFree fs o) {x t : Str} (hx : (x, t) ∈ outsOf U.E.cfg o bs files) : Writes U o x := by
  classical
  have hpl := h.planned hw hn hd hl
  obtain ⟨n1, n2, n3, n4⟩ := h.names hn hd
  obtain ⟨g', g1, g2, hg, wg, lg, -⟩ := h.from hw hn hd hl
    (g := { fs with files := fun y => if ∃ t, (y, t) ∈ outsOf U.E.cfg o bs files then none else fs.files y })
    ⟨fun _ hdd => hdd, hpl.dirs, fun y hy => if_neg (fun ⟨t, ht⟩ => hy t ht)⟩
  have hop := writeFile_dirs hg.opened
  have fop := writeFile_some hg.opened
  obtain ⟨w1, e1, _⟩ := updateAll_writes hg.update
  obtain ⟨w2, e2, _⟩ := finishRun_writes (o := o) U.E.cfg bs files g2
  have et : g'.writes = fs.writes ++ ([rootPath o] ++ w1 ++ w2) := by
    rw [hg.finish, e2, e1, hop.2.1]; simp
  refine ⟨_, g', _, wg, ends_of_done hg, et, ?_⟩
  rcases List.mem_cons.1 hx with hx | hx
  · injection hx with a _
    rw [a]; simp
  rcases List.mem_append.1 hx with hx | hx
  · obtain ⟨p, hp, e⟩ := List.mem_map.1 hx
    injection e with e _
    subst e
    obtain ⟨w, e3, hm⟩ := updateAll_fresh hg.update n1 p hp (n2 p hp) (by
      rw [fop]
      simp only [n3 p hp, if_false]
      exact if_pos ⟨_, source_mem hp⟩)
    have : w = w1 := List.append_cancel_left (e3.symm.trans e1)
    subst this
    simp only [List.mem_append]
    exact .inl (.inr hm)
  · cases hs : o.single with
    | true => rw [hs, if_pos rfl] at hx; cases hx
    | false =>
      obtain ⟨l1, l2⟩ := lists_free hg hn lg hs
      obtain ⟨_, _, hpar2, _⟩ := hg.middle wg hn hd
      have e3 := finishRun_lists U.E.cfg bs files hs l1 l2 hpar2
      have : w2 = _ := List.append_cancel_left (e2.symm.trans e3)
      subst this
      rw [hs] at hx
      simp only [Bool.false_eq_true, if_false, List.mem_cons, List.not_mem_nil, or_false] at hx
      rcases hx with hx | hx
      · injection hx with a _; rw [a]; simp
      · injection hx with a _; rw [a]; simp

theorem writes_outs (h : RunDone U o fs fs' st bs files fs1 fs2) {x : Str} (hx : Writes U o x) : ∃ t, (x, t) ∈ outsOf U.E.cfg o bs files := by
  obtain ⟨g, g', l, _, hg, hl, hm⟩ := hx
  obtain ⟨st', bs', files', g1, g2, hg⟩ := ends_done hg
  have e1 := Loop.Returns.unique hg.bind h.bind
  subst e1
  have e2 := Option.some.inj (Loop.Returns.unique hg.sort h.sort)
  subst e2
  have e3 := Loop.Returns.unique hg.gen h.gen
  subst e3
  exact hg.writes_out hl x hm
end

/-! ## Any process -/

theorem PInv.done {f0 : Str → Option Str} {D : Str → Prop} {outs : List (Str × Str)} {p : Proc} {fs : FS} (h : PInv f0 D outs p fs) (ht : p.todo = [])
    {x t : Str} (hx : (x, t) ∈ outs) : fs.files x = some t := by
  have hp := h.proper
  rw [ht] at hp
  cases h.state x t hx with
  | waiting _ _ h3 _ => rw [ht] at h3; cases h3
  | writing s k u h1 _ _ _ _ _ _ => have h0 : (p.streams s).isSome = false := hp s; rw [h1] at h0; cases h0
  | finished h1 _ _ => exact h1

theorem PInv.old_or_begun {f0 : Str → Option Str} {D : Str → Prop} {outs : List (Str × Str)} {p : Proc} {fs : FS} (h : PInv f0 D outs p fs)
    {x t : Str} (hx : (x, t) ∈ outs) : fs.files x = f0 x ∨ ∃ u, fs.files x = some u ∧ u <+: t := by
  cases h.state x t hx with
  | waiting h1 _ _ _ => exact .inl h1
  | writing s k u _ _ h3 _ h5 _ _ => exact .inr ⟨u, h3, ⟨k.buffer ++ restOf s p.todo, by rw [← h5]; simp⟩⟩
  | finished h1 _ _ => exact .inr ⟨t, h1, List.prefix_refl t⟩

/-- Steps of one process. -/
theorem PInv.moves {f0 : Str → Option Str} {D O : Str → Prop} (hO : ∀ x, O x → ¬ D x) (hD : ∀ d, D d → f0 d = none)
    {outs : List (Str × Str)} (houts : ∀ x t, (x, t) ∈ outs → O x) {a b : Proc × FS} (hs : Moves a b)
    (h : PInv f0 D outs a.1 a.2) (hw : WInv f0 D O a.2) :
    PInv f0 D outs b.1 b.2 ∧ WInv f0 D O b.2 ∧ (∀ x, (∀ t, (x, t) ∉ outs) → b.2.files x = a.2.files x) ∧ (∀ d, a.2.dirs d = true → b.2.dirs d = true) := by
  induction hs with
  | refl => exact ⟨h, hw, fun _ _ => rfl, fun _ hd => hd⟩
  | @tail b c _ hs ih =>
    obtain ⟨i1, i2, i3, i4⟩ := ih
    obtain ⟨j1, j2, j3, j4⟩ := PInv.step hO hD houts i1 i2 hs
    exact ⟨j1, j2, fun x hx => (j3 x hx).trans (i3 x hx), fun d hd => j4 d (i4 d hd)⟩

/-! ## The number of steps -/

/-- The operations and characters of an operation. -/
def opWeight : FileOp → Nat
  | .put _ t => 1 + t.length
  | .refresh _ t => 4 + t.length
  | _ => 1

def bufferOf (st : Slot → Option Stream) (s : Slot) : Nat := match st s with
  | some h => h.buffer.length
  | none => 0

/-- A bound for the number of steps of a process. -/
def Proc.weight (p : Proc) : Nat :=
  (p.todo.map opWeight).sum + bufferOf p.streams .root + bufferOf p.streams .source + bufferOf p.streams .sources + bufferOf p.streams .modules

theorem bufferOf_set (st : Slot → Option Stream) (s : Slot) (v : Option Stream) :
    bufferOf (setStream st s v) .root + bufferOf (setStream st s v) .source + bufferOf (setStream st s v) .sources + bufferOf (setStream st s v) .modules + bufferOf st s =
    bufferOf st .root + bufferOf st .source + bufferOf st .sources + bufferOf st .modules + bufferOf (fun _ => v) s := by
  cases s <;> simp [bufferOf, setStream] <;> try omega

theorem ProcStep.weight {a b : Proc × FS} (h : ProcStep a b) : b.1.weight < a.1.weight := by
  cases h with
  | @flush p fs s k u v h1 h2 h3 =>
    have e := bufferOf_set p.streams s (some ⟨k.name, k.pos + u.length, v⟩)
    have e1 : bufferOf p.streams s = u.length + v.length := by simp [bufferOf, h1, h2]
    have e2 : bufferOf (fun _ => some ⟨k.name, k.pos + u.length, v⟩) s = v.length := rfl
    have : 0 < u.length := List.length_pos_iff.2 h3
    simp only [Proc.weight]
    omega
  | @op p fs op r h1 =>
    obtain ⟨todo, st, e⟩ := p
    simp only at h1
    subst h1
    have hw : (Proc.mk (op :: r) st e).weight = opWeight op + (Proc.mk r st e).weight := by simp [Proc.weight]; omega
    rw [hw]
    have hz : ∀ e', (Proc.mk [] st e').weight ≤ (Proc.mk r st e).weight := by
      intro e'; simp [Proc.weight]
    cases op with
    | openFile s n ck =>
      have e := bufferOf_set st s (some ⟨n, 0, []⟩)
      have e0 := bufferOf_set st s none
      have e2 : bufferOf (fun _ => some ⟨n, 0, []⟩) s = 0 := rfl
      have e3 : bufferOf (fun _ => none) s = 0 := rfl
      simp only [FileOp.exec]
      split
      · simp only [Proc.weight, opWeight]; omega
      · split
        · have := hz (some .thrown); simp only [opWeight]; omega
        · simp only [Proc.weight, opWeight]; omega
    | put s t =>
      simp only [FileOp.exec]
      split
      · rename_i k hk
        have e := bufferOf_set st s (some { k with buffer := k.buffer ++ t })
        have e1 : bufferOf st s = k.buffer.length := by simp only [bufferOf]; rw [hk]
        have e2 : bufferOf (fun _ => some { k with buffer := k.buffer ++ t }) s = k.buffer.length + t.length := by simp [bufferOf]
        simp only [Proc.weight, opWeight]; omega
      · simp only [opWeight]; omega
    | close s =>
      simp only [FileOp.exec]
      split
      · have e := bufferOf_set st s none
        have e3 : bufferOf (fun _ => none) s = 0 := rfl
        simp only [Proc.weight, opWeight]; omega
      · simp only [opWeight]; omega
    | mkdir q =>
      simp only [FileOp.exec]
      split
      · simp only [opWeight]; omega
      · have := hz (some .thrown); simp only [opWeight]; omega
    | refresh n code =>
      simp only [FileOp.exec]
      split
      · simp only [Proc.weight, opWeight, List.map_cons, List.sum_cons]; omega
      · simp only [opWeight]; omega
    | stop how =>
      have := hz (some how)
      simp only [FileOp.exec, opWeight]; omega

theorem no_endless {f : Nat → Proc × FS} (h : ∀ n, ProcStep (f n) (f (n + 1))) : False := by
  have key : ∀ n, (f n).1.weight + n ≤ (f 0).1.weight := by
    intro n
    induction n with
    | zero => omega
    | succ n ih => have := (h n).weight; omega
  have := key ((f 0).1.weight + 1)
  omega

theorem progress {p : Proc} (fs : FS) (h : p.todo ≠ []) : ∃ b, ProcStep (p, fs) b := by
  cases ht : p.todo with
  | nil => exact absurd ht h
  | cons op r => exact ⟨_, .op ht⟩

/-- A process can be brought to its end. -/
theorem can_finish (p : Proc) (fs : FS) : ∃ q fs', Moves (p, fs) (q, fs') ∧ q.todo = [] := by
  have key : ∀ n (b a : Proc × FS), b.1.weight ≤ n → Moves a b → ∃ q fs', Moves a (q, fs') ∧ q.todo = [] := by
    intro n
    induction n with
    | zero =>
      intro b a hn hm
      cases ht : b.1.todo with
      | nil => exact ⟨b.1, b.2, hm, ht⟩
      | cons op r =>
        obtain ⟨c, hc⟩ := progress (p := b.1) b.2 (by rw [ht]; simp)
        have := hc.weight
        simp only at this
        omega
    | succ n ih =>
      intro b a hn hm
      cases ht : b.1.todo with
      | nil => exact ⟨b.1, b.2, hm, ht⟩
      | cons op r =>
        obtain ⟨c, hc⟩ := progress (p := b.1) b.2 (by rw [ht]; simp)
        have := hc.weight
        exact ih c a (by simp only at this; omega) (.tail hm hc)
  exact key _ (p, fs) (p, fs) (Nat.le_refl _) .refl

/-! ## Interrupted runs -/

section
variable {U : TransUnit} {o : Opts} {fs fs' fs1 fs2 : FS} {st : BindState} {bs : List SortItem} {files : List OutFile}

/-- One run on files between the beginning and the end. -/
theorem RunDone.steps (h : RunDone U o fs fs' st bs files fs1 fs2) (hw : fs.WF) (hn : bs.length + 1 < 2 ^ 32) (hd : DistinctNames U o)
    (hl : ListsFree fs o) {g : FS} (hb : Between fs fs' g (outsOf U.E.cfg o bs files)) {p q : Proc} {g' : FS} (hp : U.Starts o p)
    (hm : Moves (p, g) (q, g')) :
    PInv g.files (fun d => fs'.dirs d = true) (outsOf U.E.cfg o bs files) q g' ∧ Between fs fs' g' (outsOf U.E.cfg o bs files) := by
  have hpl := h.planned hw hn hd hl
  obtain ⟨i1, i2, i3, i4⟩ := PInv.moves (f0 := g.files) (D := fun d => fs'.dirs d = true) (O := fun x => ∃ t, (x, t) ∈ outsOf U.E.cfg o bs files)
    (by rintro x ⟨t, ht⟩ hdd; rw [hpl.free ht] at hdd; cases hdd) (fun d hdd => hpl.clear hb hdd) (fun x t hx => ⟨t, hx⟩) hm
    (h.start hw hn hd (fun d hdd => hdd) hb.lower hp) ⟨hb.upper, fun _ _ => rfl⟩
  exact ⟨i1, fun d hdd => i4 d (hb.lower d hdd), i2.dirs, fun x hx => (i3 x hx).trans (hb.rest x hx)⟩

theorem RunDone.interrupted (h : RunDone U o fs fs' st bs files fs1 fs2) (hw : fs.WF) (hn : bs.length + 1 < 2 ^ 32) (hd : DistinctNames U o)
    (hl : ListsFree fs o) {g : FS} (hi : Interrupted U o fs g) : Between fs fs' g (outsOf U.E.cfg o bs files) ∧
      ∀ x t, (x, t) ∈ outsOf U.E.cfg o bs files → g.files x = fs.files x ∨ ∃ u, g.files x = some u ∧ u <+: t := by
  have hpl := h.planned hw hn hd hl
  induction hi with
  | never => exact ⟨⟨fun _ hdd => hdd, hpl.dirs, fun _ _ => rfl⟩, fun _ _ _ => .inl rfl⟩
  | again _ hp hm ih =>
    obtain ⟨hb, ih⟩ := ih
    obtain ⟨hi, hb'⟩ := h.steps hw hn hd hl hb hp hm
    refine ⟨hb', ?_⟩
    intro x t hx
    rcases hi.old_or_begun hx with e | e
    · rw [e]; exact ih x t hx
    · exact .inr e
end

/-! ## The order of the files -/

/-- The file of a stream. -/
def slotName (o : Opts) : Slot → Str
  | .root => rootPath o
  | .source => []
  | .sources => o.pre ++ c!"/" ++ o.root ++ c!".sources"
  | .modules => o.pre ++ c!"/" ++ o.root ++ c!".modules"

/-- Sources are written before the file `L` is opened. -/
def Later (L : Str) : List FileOp → Prop
  | [] => True
  | .openFile s _ _ :: r => (s = .source → L ∈ touched r) ∧ Later L r
  | .refresh _ _ :: r => L ∈ touched r ∧ Later L r
  | _ :: r => Later L r

structure Order (o : Opts) (T : List Str) (p : Proc) : Prop where
  suffix : touched p.todo <:+ T
  names : ∀ s n ck, FileOp.openFile s n ck ∈ p.todo → s ≠ .source → n = slotName o s
  streams : ∀ s k, p.streams s = some k → s ≠ .source → k.name = slotName o s
  later : Later (slotName o .sources) p.todo
  busy : (p.streams .source).isSome = true → slotName o .sources ∈ touched p.todo

theorem Order.step {o : Opts} {T : List Str} {a b : Proc × FS} (h : Order o T a.1) (hp : Proper (fun s => (a.1.streams s).isSome) a.1.todo)
    (hs : ProcStep a b) : Order o T b.1 := by
  cases hs with
  | @flush p fs s k u v h1 h2 h3 =>
    refine ⟨h.suffix, h.names, ?_, h.later, ?_⟩
    · intro s' k' e hne
      rcases setStream_some e with ⟨e0, e1⟩ | ⟨_, e1⟩
      · subst e0
        rw [← Option.some.inj e1]
        exact h.streams s' k h1 hne
      · exact h.streams s' k' e1 hne
    · intro hsome
      apply h.busy
      obtain ⟨k', hk'⟩ := Option.isSome_iff_exists.1 hsome
      rcases setStream_some hk' with ⟨e0, _⟩ | ⟨_, e1⟩
      · rw [e0]; show (p.streams s).isSome = true; rw [h1]; rfl
      · show (p.streams .source).isSome = true; rw [e1]; rfl
  | @op p fs op r h1 =>
    obtain ⟨todo, st, e⟩ := p
    simp only at h1
    subst h1
    have hnames : ∀ s n ck, FileOp.openFile s n ck ∈ r → s ≠ .source → n = slotName o s :=
      fun s n ck hm => h.names s n ck (List.mem_cons_of_mem _ hm)
    have hstop : ∀ e', (st .source).isSome = false → Order o T ⟨[], st, e'⟩ := fun e' hc => ⟨List.nil_suffix, by simp, h.streams, trivial, fun hs => by
      have hs : (st .source).isSome = true := hs
      rw [hc] at hs; cases hs⟩
    cases op with
    | openFile s n ck =>
      have hp1 : (st .source).isSome = false := hp.2.1
      have hl : (s = .source → slotName o .sources ∈ touched r) ∧ Later (slotName o .sources) r := h.later
      have hsuf : touched r <:+ T := (List.suffix_cons _ _).trans h.suffix
      simp only [FileOp.exec]
      split
      · refine ⟨hsuf, hnames, ?_, hl.2, ?_⟩
        · intro s' k' e' hne
          rcases setStream_some e' with ⟨e0, e1⟩ | ⟨_, e1⟩
          · subst e0
            rw [← Option.some.inj e1]
            exact h.names s' n ck List.mem_cons_self hne
          · exact h.streams s' k' e1 hne
        · intro hsome
          obtain ⟨k', hk'⟩ := Option.isSome_iff_exists.1 hsome
          rcases setStream_some hk' with ⟨e0, _⟩ | ⟨_, e1⟩
          · exact hl.1 e0.symm
          · rw [e1] at hp1; cases hp1
      · split
        · exact hstop _ hp1
        · refine ⟨hsuf, hnames, ?_, hl.2, ?_⟩
          · intro s' k' e' hne
            rcases setStream_some e' with ⟨_, e1⟩ | ⟨_, e1⟩
            · cases e1
            · exact h.streams s' k' e1 hne
          · intro hsome
            obtain ⟨k', hk'⟩ := Option.isSome_iff_exists.1 hsome
            rcases setStream_some hk' with ⟨_, e1⟩ | ⟨_, e1⟩
            · cases e1
            · rw [e1] at hp1; cases hp1
    | put s t =>
      simp only [FileOp.exec]
      split
      · rename_i k hk
        refine ⟨h.suffix, hnames, ?_, h.later, ?_⟩
        · intro s' k' e' hne
          rcases setStream_some e' with ⟨e0, e1⟩ | ⟨_, e1⟩
          · subst e0
            rw [← Option.some.inj e1]
            exact h.streams s' k hk hne
          · exact h.streams s' k' e1 hne
        · intro hsome
          apply h.busy
          obtain ⟨k', hk'⟩ := Option.isSome_iff_exists.1 hsome
          rcases setStream_some hk' with ⟨e0, _⟩ | ⟨_, e1⟩
          · rw [e0]; show (st s).isSome = true; rw [hk]; rfl
          · show (st .source).isSome = true; rw [e1]; rfl
      · exact ⟨h.suffix, hnames, h.streams, h.later, h.busy⟩
    | close s =>
      simp only [FileOp.exec]
      split
      · refine ⟨h.suffix, hnames, ?_, h.later, ?_⟩
        · intro s' k' e' hne
          rcases setStream_some e' with ⟨_, e1⟩ | ⟨_, e1⟩
          · cases e1
          · exact h.streams s' k' e1 hne
        · intro hsome
          apply h.busy
          obtain ⟨k', hk'⟩ := Option.isSome_iff_exists.1 hsome
          rcases setStream_some hk' with ⟨_, e1⟩ | ⟨_, e1⟩
          · cases e1
          · show (st .source).isSome = true; rw [e1]; rfl
      · exact ⟨h.suffix, hnames, h.streams, h.later, h.busy⟩
    | mkdir q =>
      simp only [FileOp.exec]
      split
      · exact ⟨h.suffix, hnames, h.streams, h.later, h.busy⟩
      · exact hstop _ hp.1
    | refresh n code =>
      have hp1 : (st .source).isSome = false := hp.1
      have hl : slotName o .sources ∈ touched r ∧ Later (slotName o .sources) r := h.later
      simp only [FileOp.exec]
      split
      · refine ⟨h.suffix, ?_, h.streams, ⟨fun _ => hl.1, hl.2⟩, ?_⟩
        · intro s n' ck hm hne
          simp only [List.mem_cons, reduceCtorEq, false_or, FileOp.openFile.injEq] at hm
          rcases hm with hm | hm
          · exact absurd hm.1 hne
          · exact hnames s n' ck hm hne
        · intro hsome
          have hs : (st .source).isSome = true := hsome
          rw [hp1] at hs; cases hs
      · exact ⟨(List.suffix_cons _ _).trans h.suffix, hnames, h.streams, hl.2, fun _ => hl.1⟩
    | stop how => exact absurd hp id

theorem later_append {L : Str} {l r : List FileOp} (hr : L ∈ touched r) (h : Later L r) : Later L (l ++ r) := by
  induction l with
  | nil => exact h
  | cons a l ih =>
    have hm : L ∈ touched (l ++ r) := by rw [touched_append]; exact List.mem_append_right _ hr
    cases a with
    | openFile s n ck => exact ⟨fun _ => hm, ih⟩
    | refresh n c => exact ⟨hm, ih⟩
    | put s t => exact ih
    | close s => exact ih
    | mkdir q => exact ih
    | stop e => exact ih

theorem suffix_after {α : Type} {l a b : List α} {x : α} (h : l <:+ a ++ x :: b) (hx : x ∉ l) : l <:+ b := by
  rcases List.suffix_or_suffix_of_suffix h (List.suffix_append a (x :: b)) with h | h
  · rcases List.suffix_cons_iff.1 h with h | h
    · exact absurd (by rw [h]; exact List.mem_cons_self) hx
    · exact h
  · exact absurd (h.mem List.mem_cons_self) hx

section
variable {U : TransUnit} {o : Opts} {fs fs' fs1 fs2 : FS} {st : BindState} {bs : List SortItem} {files : List OutFile}

theorem RunDone.order (h : RunDone U o fs fs' st bs files fs1 fs2) (hs : o.single = false) {p : Proc} (hp : U.Starts o p) :
    Order o ((outsOf U.E.cfg o bs files).map (·.1)) p := by
  have htodo := starts_todo h hp
  obtain ⟨_, _, hst, _⟩ := hp
  refine ⟨by rw [htodo, touched_run]; exact List.suffix_refl _, ?_, fun s k e => (by rw [hst s] at e; cases e), ?_, fun e => (by rw [hst] at e; cases e)⟩
  · intro s n ck hm hne
    rw [htodo] at hm
    unfold runOps endOps at hm
    rw [hs] at hm
    simp only [List.mem_cons, List.mem_append, FileOp.openFile.injEq, reduceCtorEq, false_or, or_false, Bool.false_eq_true, if_false, List.not_mem_nil] at hm
    rcases hm with ⟨rfl, rfl, _⟩ | hm | ⟨rfl, rfl, _⟩ | ⟨rfl, rfl, _⟩
    · rfl
    · obtain ⟨f, hf, hm⟩ := List.mem_flatMap.1 hm
      unfold fileOps at hm
      rw [hs] at hm
      simp at hm
    · rfl
    · rfl
  · rw [htodo]
    unfold runOps
    have hL : slotName o .sources ∈ touched (endOps U.E.cfg o (allNestedNamespaces bs) files) := by
      unfold endOps; rw [hs]; simp [touched, slotName]
    refine ⟨fun e => (by cases e), later_append hL ?_⟩
    unfold endOps
    rw [hs]
    exact ⟨fun e => (by cases e), fun e => (by cases e), trivial⟩

/-- When the list of sources is opened, all sources are complete. -/
theorem RunDone.sources_first (h : RunDone U o fs fs' st bs files fs1 fs2) (hs : o.single = false) {f0 : Str → Option Str} {D : Str → Prop} {p : Proc} {g : FS}
    (ho : Order o ((outsOf U.E.cfg o bs files).map (·.1)) p) (hi : PInv f0 D (outsOf U.E.cfg o bs files) p g)
    (hL : g.files (slotName o .sources) ≠ f0 (slotName o .sources)) {x t : Str} (hx : (x, t) ∈ outsOf U.E.cfg o bs files)
    (h1 : x ≠ slotName o .root) (h2 : x ≠ slotName o .sources) (h3 : x ≠ slotName o .modules) : g.files x = some t := by
  have hLt : slotName o .sources ∉ touched p.todo := by
    cases hi.state _ _ (sources_mem U.E.cfg bs files hs) with
    | waiting e _ _ _ => exact absurd e hL
    | writing _ _ _ _ _ _ _ _ e _ => exact e
    | finished _ e _ => exact e
  have hclosed : p.streams .source = none := by
    cases hc : p.streams .source with
    | none => rfl
    | some k => exact absurd (ho.busy (by rw [hc]; rfl)) hLt
  have hsuf : touched p.todo <:+ [slotName o .modules] := by
    have := ho.suffix
    unfold outsOf at this
    rw [hs] at this
    simp only [List.map_cons, List.map_append, Bool.false_eq_true, if_false, List.map_nil] at this
    rw [← List.cons_append] at this
    exact suffix_after this hLt
  have hxt : x ∉ touched p.todo := by
    intro hm
    exact h3 (List.mem_singleton.1 (hsuf.mem hm))
  cases hi.state x t hx with
  | waiting _ _ e _ => exact absurd e hxt
  | finished e _ _ => exact e
  | writing s k u q1 q2 _ _ _ _ _ =>
    cases s with
    | source => rw [hclosed] at q1; cases q1
    | root => exact absurd (q2.symm.trans (ho.streams _ _ q1 (by simp))) h1
    | sources => exact absurd (q2.symm.trans (ho.streams _ _ q1 (by simp))) h2
    | modules => exact absurd (q2.symm.trans (ho.streams _ _ q1 (by simp))) h3

theorem RunDone.order_steps (h : RunDone U o fs fs' st bs files fs1 fs2) (hw : fs.WF) (hn : bs.length + 1 < 2 ^ 32) (hd : DistinctNames U o)
    (hl : ListsFree fs o) (hs : o.single = false) {g : FS} (hb : Between fs fs' g (outsOf U.E.cfg o bs files)) {p : Proc} (hp : U.Starts o p) {b : Proc × FS}
    (hm : Moves (p, g) b) : Order o ((outsOf U.E.cfg o bs files).map (·.1)) b.1 := by
  generalize ea : (p, g) = a at hm
  induction hm with
  | refl => subst ea; exact h.order hs hp
  | @tail b c hm hst ih =>
    subst ea
    have := (h.steps hw hn hd hl hb hp (q := b.1) (g' := b.2) hm).1
    exact ih.step this.proper hst
end

/-! ## Schedules -/

/-- Several processes with different files do not disturb each other. -/
theorem world_inv {ι : Type} {f0 : Str → Option Str} {D O : Str → Prop} (hO : ∀ x, O x → ¬ D x) (hD : ∀ d, D d → f0 d = none)
    {outs : ι → List (Str × Str)} (houts : ∀ i x t, (x, t) ∈ outs i → O x)
    (hdis : ∀ i j, i ≠ j → ∀ x t t', (x, t) ∈ outs i → (x, t') ∉ outs j) {w w' : World ι} (hs : Schedule w w')
    (h : ∀ i, PInv f0 D (outs i) (w.procs i) w.fs) (hw : WInv f0 D O w.fs) :
    (∀ i, PInv f0 D (outs i) (w'.procs i) w'.fs) ∧ WInv f0 D O w'.fs := by
  induction hs with
  | refl => exact ⟨h, hw⟩
  | tail _ hs ih =>
    obtain ⟨i1, i2⟩ := ih
    cases hs with
    | @step procs' fs'' i hp hothers =>
      obtain ⟨j1, j2, j3, j4⟩ := PInv.step hO hD (houts i) (i1 i) i2 hp
      refine ⟨?_, j2⟩
      intro j
      by_cases hij : j = i
      · subst hij; exact j1
      · show PInv f0 D (outs j) (procs' j) fs''
        rw [hothers j hij]
        exact (i1 j).frame j4 (fun x t hx => j3 x (fun t' ht' => hdis j i hij x t t' hx ht'))

end Binder
