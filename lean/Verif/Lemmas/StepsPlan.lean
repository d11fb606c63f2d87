import Verif.Lemmas.StepsRun

/-!
# From the operations of a run to its result
-/

namespace Binder

open Spec

variable {U : TransUnit} {o : Opts} {fs fs' fs1 fs2 : FS} {st : BindState} {bs : List SortItem} {files : List OutFile}

theorem sources_mem (c : Config) (bs : List SortItem) (files : List OutFile) (hs : o.single = false) :
    (o.pre ++ c!"/" ++ o.root ++ c!".sources", sourcesText o files) ∈ outsOf c o bs files := by
  unfold outsOf
  exact List.mem_cons_of_mem _ (List.mem_append_right _ (by rw [hs]; exact List.mem_cons_self))

theorem modules_mem (c : Config) (bs : List SortItem) (files : List OutFile) (hs : o.single = false) :
    (o.pre ++ c!"/" ++ o.root ++ c!".modules", modulesText (allNestedNamespaces bs)) ∈ outsOf c o bs files := by
  unfold outsOf
  exact List.mem_cons_of_mem _ (List.mem_append_right _ (by rw [hs]; exact List.mem_cons_of_mem _ List.mem_cons_self))

theorem source_mem {c : Config} {bs : List SortItem} {files : List OutFile} {p : Str × Str} (hp : p ∈ sourceFiles c o files) :
    (o.pre ++ c!"/" ++ p.1, p.2) ∈ outsOf c o bs files :=
  List.mem_cons_of_mem _ (List.mem_append_left _ (List.mem_map.2 ⟨p, hp, rfl⟩))

theorem starts_todo (h : RunDone U o fs fs' st bs files fs1 fs2) {p : Proc} (hp : U.Starts o p) : p.todo = runOps U.E.cfg o bs files := by
  obtain ⟨n, h1, _⟩ := hp
  unfold TransUnit.programF at h1
  rw [h.noConflict] at h1
  simp only [Bool.false_eq_true, if_false, generateOpsF] at h1
  split at h1
  · cases h1
  rename_i st' hst
  rw [Loop.Returns.unique ⟨n, hst⟩ h.bind] at h1
  split at h1
  · cases h1
  · rename_i hs
    cases Loop.Returns.unique ⟨n, hs⟩ h.sort
  · rename_i bs' hs
    have e := Option.some.inj (Loop.Returns.unique ⟨n, hs⟩ h.sort)
    subst e
    split at h1
    · cases h1
    · rename_i files' hf
      rw [Loop.Returns.unique ⟨n, hf⟩ h.gen] at h1
      exact (Option.some.inj h1).symm

theorem starts_exists (h : RunDone U o fs fs' st bs files fs1 fs2) : U.Starts o ⟨runOps U.E.cfg o bs files, fun _ => none, none⟩ := by
  obtain ⟨n1, h1⟩ := h.bind
  obtain ⟨n2, h2⟩ := h.sort
  obtain ⟨n3, h3⟩ := h.gen
  refine ⟨n1 + n2 + n3, ?_, fun _ => rfl, rfl⟩
  unfold TransUnit.programF
  rw [h.noConflict]
  simp only [Bool.false_eq_true, if_false, generateOpsF, Loop.run_mono h1 (by omega : n1 ≤ n1 + n2 + n3),
    Loop.run_mono h2 (by omega : n2 ≤ n1 + n2 + n3), Loop.run_mono h3 (by omega : n3 ≤ n1 + n2 + n3)]

theorem outs_nodup (h : RunDone U o fs fs' st bs files fs1 fs2) (hn : bs.length + 1 < 2 ^ 32) (hd : DistinctNames U o) :
    ((outsOf U.E.cfg o bs files).map (·.1)).Nodup := by
  obtain ⟨n1, n2, n3, n4⟩ := h.names hn hd
  have er : rootPath o = (o.pre ++ c!"/" ++ o.root) ++ c!".cpp" := by unfold rootPath; simp
  have hsm : o.pre ++ c!"/" ++ o.root ++ c!".sources" ≠ o.pre ++ c!"/" ++ o.root ++ c!".modules" := by
    intro h; have := List.append_cancel_left h; revert this; decide
  have hx : ∀ ext : Str, (ext = c!".sources" ∨ ext = c!".modules") → rootPath o ≠ o.pre ++ c!"/" ++ o.root ++ ext ∧
      ∀ p ∈ sourceFiles U.E.cfg o files, o.pre ++ c!"/" ++ p.1 ≠ o.pre ++ c!"/" ++ o.root ++ ext := by
    intro ext he
    have h1 : ext.getLast? ≠ some 'p' ∧ ext ≠ [] := by rcases he with rfl | rfl <;> decide
    refine ⟨by rw [er]; exact cpp_ne h1.1 h1.2, ?_⟩
    intro p hp
    obtain ⟨stem, e⟩ := n4 p hp
    have e' : o.pre ++ c!"/" ++ p.1 = (o.pre ++ c!"/" ++ stem) ++ c!".cpp" := by rw [e]; simp
    rw [e']; exact cpp_ne h1.1 h1.2
  obtain ⟨r1, s1⟩ := hx _ (.inl rfl)
  obtain ⟨r2, s2⟩ := hx _ (.inr rfl)
  unfold outsOf
  rw [List.map_cons, List.nodup_cons, List.map_append, List.map_map]
  refine ⟨?_, ?_⟩
  · intro hm
    rcases List.mem_append.1 hm with hm | hm
    · obtain ⟨p, hp, e⟩ := List.mem_map.1 hm
      exact n3 p hp e
    · split at hm
      · cases hm
      · simp only [List.map_cons, List.map_nil, List.mem_cons, List.not_mem_nil, or_false] at hm
        exact hm.elim r1 r2
  · rw [List.nodup_append]
    refine ⟨?_, ?_, ?_⟩
    · have : (sourceFiles U.E.cfg o files).map ((·.1) ∘ fun p => (o.pre ++ c!"/" ++ p.1, p.2)) =
          ((sourceFiles U.E.cfg o files).map (·.1)).map (fun n => o.pre ++ c!"/" ++ n) := by rw [List.map_map]; rfl
      rw [this]
      exact nodup_map_on n1 (fun a _ b _ e => List.append_cancel_left e)
    · split
      · exact List.nodup_nil
      · simp only [List.map_cons, List.map_nil, List.nodup_cons, List.mem_cons, List.not_mem_nil, or_false, not_false_iff, List.nodup_nil, and_true]
        exact hsm
    · intro a ha b hb
      obtain ⟨p, hp, rfl⟩ := List.mem_map.1 ha
      split at hb
      · cases hb
      · simp only [List.map_cons, List.map_nil, List.mem_cons, List.not_mem_nil, or_false] at hb
        rcases hb with rfl | rfl
        · exact s1 p hp
        · exact s2 p hp

theorem lists_free (h : RunDone U o fs fs' st bs files fs1 fs2) (hn : bs.length + 1 < 2 ^ 32) (hl : ListsFree fs o) (hs : o.single = false) :
    fs2.dirs (o.pre ++ c!"/" ++ o.root ++ c!".sources") = false ∧ fs2.dirs (o.pre ++ c!"/" ++ o.root ++ c!".modules") = false := by
  have hd := updateAll_dirs h.update
  have hop := (writeFile_dirs h.opened).1
  have hnames := sourceFiles_names hn h.gen
  have key : ∀ ext : Str, (ext = c!".sources" ∨ ext = c!".modules") → fs.dirs (o.pre ++ c!"/" ++ o.root ++ ext) = false →
      fs2.dirs (o.pre ++ c!"/" ++ o.root ++ ext) = false := by
    intro ext he hf
    cases hc : fs2.dirs (o.pre ++ c!"/" ++ o.root ++ ext) with
    | false => rfl
    | true =>
      rcases (hd _).1 hc with hc | ⟨p, hp, hc⟩
      · rw [hop, hf] at hc; cases hc
      · have hsn := hnames p hp
        have hcpp : CppName p.1 := by
          rcases hsn with h | ⟨_, _, n, h⟩ | ⟨_, _, stem, _, h⟩ <;> exact ⟨_, h⟩
        obtain ⟨r, e⟩ := sourceDir_split hcpp.ne.1 hcpp.ne.2 hc
        refine absurd ?_ (lists_clear (r := r) he hsn)
        simp only [List.append_assoc] at e
        have := List.append_cancel_left (List.append_cancel_left e)
        simpa using this
  rcases hl with hl | ⟨h1, h2⟩
  · rw [hs] at hl; cases hl
  · exact ⟨key _ (.inl rfl) h1, key _ (.inr rfl) h2⟩

/-- What a run does to the files, in terms of the files it writes. -/
structure Planned (U : TransUnit) (o : Opts) (fs fs' : FS) (outs : List (Str × Str)) : Prop where
  new : ∀ x t, (x, t) ∈ outs → fs'.files x = some t
  same : ∀ x, (∀ t, (x, t) ∉ outs) → fs'.files x = fs.files x
  wf : fs'.WF
  dirs : ∀ d, fs.dirs d = true → fs'.dirs d = true

theorem RunDone.planned (h : RunDone U o fs fs' st bs files fs1 fs2) (hw : fs.WF) (hn : bs.length + 1 < 2 ^ 32) (hd : DistinctNames U o)
    (hl : ListsFree fs o) : Planned U o fs fs' (outsOf U.E.cfg o bs files) := by
  obtain ⟨w2, hroot2, hpar2, hsrc2⟩ := h.middle hw hn hd
  obtain ⟨n1, n2, n3, n4⟩ := h.names hn hd
  have hnd := outs_nodup h hn hd
  have hfin : ∀ x, fs'.files x = _ := fun x => (by rw [h.finish] : fs'.files x = _).trans (finishRun_files _ _ _ _ hpar2 x)
  obtain ⟨_, _, hframe, hmono⟩ := updateAll_some (writeFile_wf hw h.opened) n2 n1 h.update
  have hopen := writeFile_some h.opened
  refine ⟨?_, ?_, ?_, ?_⟩
  · intro x t hx
    unfold outsOf at hnd hx
    rw [List.map_cons, List.nodup_cons] at hnd
    rw [hfin]
    rcases List.mem_cons.1 hx with hx | hx
    · injection hx with h1 h2
      subst h1 h2
      rw [if_pos rfl, hroot2]; simp
    · have hne : x ≠ rootPath o := by
        rintro rfl
        exact hnd.1 (List.mem_map.2 ⟨_, hx, rfl⟩)
      rw [if_neg hne]
      rcases List.mem_append.1 hx with hx' | hx'
      · obtain ⟨p, hp, e⟩ := List.mem_map.1 hx'
        injection e with e1 e2
        subst e1 e2
        obtain ⟨stem, e⟩ := n4 p hp
        have e' : o.pre ++ c!"/" ++ p.1 = (o.pre ++ c!"/" ++ stem) ++ c!".cpp" := by rw [e]; simp
        have m1 : o.pre ++ c!"/" ++ p.1 ≠ o.pre ++ c!"/" ++ o.root ++ c!".sources" := by rw [e']; exact cpp_ne (by decide) (by decide)
        have m2 : o.pre ++ c!"/" ++ p.1 ≠ o.pre ++ c!"/" ++ o.root ++ c!".modules" := by rw [e']; exact cpp_ne (by decide) (by decide)
        rw [if_neg m1, if_neg m2, ite_self]
        exact (hsrc2 p hp).1
      · cases hs : o.single with
        | true => rw [hs, if_pos rfl] at hx'; cases hx'
        | false =>
          obtain ⟨l1, l2⟩ := lists_free h hn hl hs
          rw [hs] at hx'
          simp only [Bool.false_eq_true, if_false, List.mem_cons, List.not_mem_nil, or_false] at hx' ⊢
          have hsm : o.pre ++ c!"/" ++ o.root ++ c!".modules" ≠ o.pre ++ c!"/" ++ o.root ++ c!".sources" := by
            intro h; have := List.append_cancel_left h; revert this; decide
          rcases hx' with hx' | hx'
          · injection hx' with e1 e2
            subst e1 e2
            rw [if_pos rfl, l1]; rfl
          · injection hx' with e1 e2
            subst e1 e2
            rw [if_neg hsm, if_pos rfl, l2]; rfl
  · intro x hx
    have m1 : ∀ p ∈ sourceFiles U.E.cfg o files, x ≠ o.pre ++ c!"/" ++ p.1 := by
      rintro p hp rfl
      exact hx p.2 (source_mem hp)
    have m0 : x ≠ rootPath o := by rintro rfl; exact hx _ List.mem_cons_self
    have e2 : fs2.files x = fs.files x := by
      rw [hframe x m1, hopen]; simp [m0]
    rw [hfin, if_neg m0]
    cases hs : o.single with
    | true => simp only [if_true]; exact e2
    | false =>
      have m2 : x ≠ o.pre ++ c!"/" ++ o.root ++ c!".sources" := by
        rintro rfl; exact hx _ (sources_mem _ _ _ hs)
      have m3 : x ≠ o.pre ++ c!"/" ++ o.root ++ c!".modules" := by
        rintro rfl; exact hx _ (modules_mem _ _ _ hs)
      simp only [Bool.false_eq_true, if_false, if_neg m2, if_neg m3]
      exact e2
  · rw [h.finish]; exact finishRun_wf _ _ _ w2 (w2.notDir hroot2)
  · intro d hdd
    rw [h.finish, finishRun_dirs]
    exact hmono d (by rw [(writeFile_dirs h.opened).1]; exact hdd)

/-- Files between the beginning and the end of a run. -/
structure Between (fs fs' g : FS) (outs : List (Str × Str)) : Prop where
  lower : ∀ d, fs.dirs d = true → g.dirs d = true
  upper : ∀ d, g.dirs d = true → fs'.dirs d = true
  rest : ∀ x, (∀ t, (x, t) ∉ outs) → g.files x = fs.files x

theorem Planned.clear {outs : List (Str × Str)} (h : Planned U o fs fs' outs) {g : FS} (hb : Between fs fs' g outs) {d : Str} (hd : fs'.dirs d = true) :
    g.files d = none := by
  have hno : ∀ t, (d, t) ∉ outs := by
    intro t ht
    have := h.new d t ht
    rw [h.wf d hd] at this
    cases this
  rw [hb.rest d hno, ← h.same d hno]
  exact h.wf d hd

theorem Planned.free {outs : List (Str × Str)} (h : Planned U o fs fs' outs) {x t : Str} (hx : (x, t) ∈ outs) : fs'.dirs x = false :=
  h.wf.notDir (h.new x t hx)

theorem RunDone.finalDirs (h : RunDone U o fs fs' st bs files fs1 fs2) : ∀ d, fs'.dirs d = true ↔ fs.dirs d = true ∨
    ∃ p ∈ sourceFiles U.E.cfg o files, d ∈ dirChain (sourceDir o.pre p.1) := by
  intro d
  rw [h.finish, finishRun_dirs, updateAll_dirs h.update, (writeFile_dirs h.opened).1]

/-- The run can start on such files. -/
theorem RunDone.start (h : RunDone U o fs fs' st bs files fs1 fs2) (hw : fs.WF) (hn : bs.length + 1 < 2 ^ 32) (hd : DistinctNames U o)
    {D : Str → Prop} (hD : ∀ d, fs'.dirs d = true → D d) {g : FS} (hlow : ∀ d, fs.dirs d = true → g.dirs d = true) {p : Proc} (hp : U.Starts o p) :
    PInv g.files D (outsOf U.E.cfg o bs files) p g := by
  have htodo := starts_todo h hp
  obtain ⟨_, _, hst, hend⟩ := hp
  have hnd := outs_nodup h hn hd
  obtain ⟨_, _, _, n4⟩ := h.names hn hd
  obtain ⟨_, _, _, hsrc2⟩ := h.middle hw hn hd
  have hop := writeFile_dirs h.opened
  refine ⟨hend, ?_, ?_, ?_, ?_, ?_, ?_, ?_⟩
  · have : (fun s => (p.streams s).isSome) = fun _ => false := by funext s; rw [hst s]; rfl
    rw [this, htodo]; exact proper_run _ _ _ _
  · rw [htodo, touched_run]; exact hnd
  · rw [htodo]
    exact ready_run (hlow _ hop.2.2.2) (fun q hq => ⟨(hsrc2 q hq).2.1, n4 q hq⟩)
  · intro q hq d hdd
    rw [htodo] at hq
    obtain ⟨s, hs, rfl⟩ := chains_run hq
    exact hD d ((h.finalDirs d).2 (.inr ⟨s, hs, hdd⟩))
  · intro n hnn
    rw [htodo, touched_run] at hnn
    obtain ⟨⟨x, t⟩, hx, rfl⟩ := List.mem_map.1 hnn
    exact ⟨t, hx⟩
  · intro s k e; rw [hst s] at e; cases e
  · intro x t hx
    refine .waiting rfl ?_ ?_ (fun s k e => by rw [hst s] at e; cases e)
    · rw [htodo]; exact makes_run hnd hx
    · rw [htodo, touched_run]; exact List.mem_map.2 ⟨_, hx, rfl⟩

/-- A run on such files succeeds, too. -/
theorem RunDone.from (h : RunDone U o fs fs' st bs files fs1 fs2) (hw : fs.WF) (hn : bs.length + 1 < 2 ^ 32) (hd : DistinctNames U o)
    (hl : ListsFree fs o) {g : FS} (hb : Between fs fs' g (outsOf U.E.cfg o bs files)) :
    ∃ g' g1 g2, RunDone U o g g' st bs files g1 g2 ∧ g.WF ∧ ListsFree g o ∧ g'.files = fs'.files := by
  have hpl := h.planned hw hn hd hl
  obtain ⟨_, _, _, n4⟩ := h.names hn hd
  obtain ⟨_, _, _, hsrc2⟩ := h.middle hw hn hd
  have hop := writeFile_dirs h.opened
  have hfree : ∀ x t, (x, t) ∈ outsOf U.E.cfg o bs files → g.dirs x = false := by
    intro x t hx
    cases hc : g.dirs x with
    | false => rfl
    | true => rw [← hpl.free hx, hb.upper x hc]
  obtain ⟨g1, hg1⟩ := writeFile_ok (fs := g) (name := rootPath o) [] (hfree _ _ List.mem_cons_self) (hb.lower _ hop.2.2.2)
  have fg1 := writeFile_some hg1
  obtain ⟨dg1, _⟩ := writeFile_dirs hg1
  have wg : g.WF := fun d hdd => hpl.clear hb (hb.upper d hdd)
  obtain ⟨g2, hg2⟩ := updateAll_ok (fs := g1) (pre := o.pre) (D := fun d => fs'.dirs d = true) (l := sourceFiles U.E.cfg o files) (by
      intro p hp
      refine ⟨(hsrc2 p hp).2.1, n4 p hp, fun d hdd => (h.finalDirs d).2 (.inr ⟨p, hp, hdd⟩), ?_⟩
      rw [hpl.free (x := o.pre ++ c!"/" ++ p.1) (t := p.2) (source_mem hp)]
      simp) (by rw [dg1]; exact hb.upper) (by
      intro d hdd
      have : d ≠ rootPath o := by
        rintro rfl
        rw [hpl.free List.mem_cons_self] at hdd; cases hdd
      rw [fg1]
      simp only [this, if_false]
      exact hpl.clear hb hdd)
  have hlg : ListsFree g o := by
    rcases hl with hl | _
    · exact .inl hl
    · cases hs : o.single with
      | true => exact .inl hs
      | false =>
        exact .inr ⟨hfree _ _ (sources_mem _ _ _ hs), hfree _ _ (modules_mem _ _ _ hs)⟩
  have hg : RunDone U o g (finishRun U.E.cfg o bs files g2) st bs files g1 g2 := ⟨h.noConflict, h.bind, hg1, h.sort, h.gen, hg2, rfl⟩
  have hplg := hg.planned wg hn hd hlg
  refine ⟨_, g1, g2, hg, wg, hlg, ?_⟩
  funext x
  by_cases hx : ∃ t, (x, t) ∈ outsOf U.E.cfg o bs files
  · obtain ⟨t, hx⟩ := hx
    rw [hplg.new x t hx, hpl.new x t hx]
  · have hx' : ∀ t, (x, t) ∉ outsOf U.E.cfg o bs files := fun t ht => hx ⟨t, ht⟩
    rw [hplg.same x hx', hpl.same x hx', hb.rest x hx']

theorem RunDone.writes_out (h : RunDone U o fs fs' st bs files fs1 fs2) {l : List Str} (hl : fs'.writes = fs.writes ++ l) :
    ∀ x ∈ l, ∃ t, (x, t) ∈ outsOf U.E.cfg o bs files := by
  obtain ⟨w1, e1, h1⟩ := updateAll_writes h.update
  obtain ⟨_, e0, _⟩ := writeFile_dirs h.opened
  intro x hx
  cases hs : o.single with
  | true =>
    have e2 : fs'.writes = fs2.writes := by rw [h.finish, finishRun, if_pos hs]; rfl
    have : l = [rootPath o] ++ w1 := by
      apply List.append_cancel_left (as := fs.writes)
      rw [← hl, e2, e1, e0, List.append_assoc]
    rw [this] at hx
    rcases List.mem_append.1 hx with hx | hx
    · rw [List.mem_singleton.1 hx]; exact ⟨_, List.mem_cons_self⟩
    · obtain ⟨p, hp, rfl⟩ := h1 x hx
      exact ⟨p.2, source_mem hp⟩
  | false =>
    obtain ⟨w2, e2, h2⟩ := finishRun_writes (o := o) U.E.cfg bs files fs2
    have : l = [rootPath o] ++ w1 ++ w2 := by
      apply List.append_cancel_left (as := fs.writes)
      rw [← hl, h.finish, e2, e1, e0]; simp
    rw [this] at hx
    rcases List.mem_append.1 hx with hx | hx
    · rcases List.mem_append.1 hx with hx | hx
      · rw [List.mem_singleton.1 hx]; exact ⟨_, List.mem_cons_self⟩
      · obtain ⟨p, hp, rfl⟩ := h1 x hx
        exact ⟨p.2, source_mem hp⟩
    · rcases h2 x hx with rfl | rfl
      · exact ⟨_, sources_mem _ _ _ hs⟩
      · exact ⟨_, modules_mem _ _ _ hs⟩

end Binder
