import Verif.Lemmas.GenProps
import Verif.Lemmas.Namespaces
import Verif.Lemmas.FileSystem
import Verif.Lemmas.GenMore
import Verif.Props.Context

/-!
# Properties C20-C22 and C31-C39: writing the generated code (`source/context.cpp`, `source/util.cpp`)

`Loop.Returns (genStep c o bs) GenState.init files` reads: with configuration `c` and options `o`, the writing loop of
`Context::generate`, started on the sorted declarations `bs`, ends having written the files `files` in this order.
The hypothesis `bs.length + 1 < 2 ^ 32` is the range of the loop variable, a 32-bit `uint`.
-/

namespace Binder

open Spec

namespace Ex

/-- Options: module `mod` in directory `out`, at most `n` characters per file. -/
def opts (n : Nat) (trace : Bool := false) (flat : Bool := false) : Opts :=
  { root := c!"mod", pre := c!"out", flat := flat, single := false, trace := trace, annotate := false, maxLen := n, stl := false }

/-- Sorted declarations: two of `m`, one not bound, three of `n`. -/
def sorted : List SortItem := [bnd dS, bnd dE, ⟨dF, []⟩, bnd dB, bnd dA]

def cfg : Config := {}
def cfgNs : Config := { binderForNamespaces := fun x => if x = c!"m" then some c!"bind_m" else none }
def cfgAdd : Config := { addOnBinderForNamespaces := fun x => if x = c!"m" then some c!"add_m" else none }
def cfgBoth : Config := { binderForNamespaces := fun x => if x = c!"m" then some c!"bind_m" else none,
                          addOnBinderForNamespaces := fun x => if x = c!"m" then some c!"add_m" else none }

end Ex

/-! ## C20 -/

/-- A successful update leaves the file with exactly the text, all its directories exist, nothing else changes, and the file was
opened for writing only if its content differed. -/
theorem C20_update (fs fs' : FS) (pre name code : Str) (hc : code ≠ []) (h : updateSourceFile fs pre name code = some fs') :
    fs'.files (pre ++ c!"/" ++ name) = some code ∧
    (∀ x, x ≠ pre ++ c!"/" ++ name → fs'.files x = fs.files x) ∧
    (∀ d, fs'.dirs d = true ↔ fs.dirs d = true ∨ d ∈ dirChain (sourceDir pre name)) ∧
    (fs'.writes = if fs.files (pre ++ c!"/" ++ name) = some code then fs.writes else fs.writes ++ [pre ++ c!"/" ++ name]) := by
  have hU := updateSourceFile_some h
  refine ⟨hU.content hc, hU.frame, hU.dirs, ?_⟩
  rw [hU.writes]
  cases hf : fs.files (pre ++ c!"/" ++ name) with
  | none => simp [fun h : [] = code => hc h.symm, hc]
  | some x => simp

/-- The directory that is created is the one that contains the file. -/
theorem C20_directory (pre : Str) (dirs : List Str) (base : Str) (hd : ∀ d ∈ dirs, '/' ∉ d) (hb : '/' ∉ base) (hbn : base ≠ []) :
    sourceDir pre (terminated '/' dirs ++ base) ++ c!"/" ++ base = pre ++ c!"/" ++ (terminated '/' dirs ++ base) := by
  have h1 : split (terminated '/' dirs ++ base) c!"/" = dirs ++ [base] := by
    unfold split
    induction dirs with
    | nil => rw [terminated, List.nil_append, splitGo_base '/' base [] hb]; simp [hbn]
    | cons d ds ih =>
      rw [terminated, List.append_assoc, List.cons_append, splitGo_terminated_aux '/' d [] _ (hd d (by simp)),
        ih (fun x hx => hd x (by simp [hx]))]
      simp
  unfold sourceDir
  rw [h1, List.dropLast_concat]
  have h2 : ∀ (dirs : List Str) (p : Str), dirs.foldl (fun p d => p ++ (c!"/" ++ d)) p ++ c!"/" = p ++ (c!"/" ++ terminated '/' dirs) := by
    intro dirs
    induction dirs with
    | nil => intro p; rfl
    | cons d ds ih => intro p; rw [List.foldl_cons, ih]; simp [terminated]
  rw [h2]
  simp

/-- A run that repeats the previous one writes nothing. -/
theorem C20_second_run_writes_nothing (pre : Str) (fs fs' : FS) (hw : fs.WF) (l : List (Str × Str)) (hne : ∀ p ∈ l, p.2 ≠ [])
    (hnd : (l.map (·.1)).Nodup) (h : updateAll pre fs l = some fs') :
    (∀ p ∈ l, fs'.files (pre ++ c!"/" ++ p.1) = some p.2) ∧
    ∃ fs'', updateAll pre fs' l = some fs'' ∧ fs''.files = fs'.files ∧ fs''.writes = fs'.writes := by
  obtain ⟨h1, h2, _, _⟩ := updateAll_some hw hne hnd h
  exact ⟨fun p hp => (h2 p hp).1, updateAll_again fun p hp => ⟨(h2 p hp).1, (h2 p hp).2.1, fun d hd => h1 d ((h2 p hp).2.2 d hd)⟩⟩

/-- The texts handed to the update are never empty. -/
theorem C20_texts_not_empty (c : Config) (o : Opts) (f : OutFile) : f.text c o ≠ [] := by
  intro h
  have := congrArg List.length h
  simp only [OutFile.text, List.length_append, List.length_cons, List.length_nil] at this
  omega

namespace Ex
def fs0 : FS := ⟨fun x => if x = c!"out/a.cpp" then some c!"old" else none, fun x => x == c!"out", []⟩
end Ex

example : Ex.fs0.WF := by
  intro p hp
  have : p = c!"out" := by simpa [Ex.fs0] using hp
  subst this; rfl
example : (updateAll c!"out" Ex.fs0 [(c!"a.cpp", c!"new"), (c!"d/e/b.cpp", c!"text")]).map
    (fun fs => (fs.files c!"out/a.cpp", fs.files c!"out/d/e/b.cpp", fs.dirs c!"out/d/e", fs.writes)) =
    some (some c!"new", some c!"text", true, [c!"out/a.cpp", c!"out/d/e/b.cpp"]) := by decide
example : (updateAll c!"out" Ex.fs0 [(c!"a.cpp", c!"old")]).map (·.writes) = some [] := by decide

/-! ## C21 -/

/-- Letters, digits, `_`, `/`, `<`, `>`: a name made of these has no `..` and no `.` component. -/
theorem C21_names_safe (c : Config) (o : Opts) (hflat : o.flat = false) (bs : List SortItem) (hn : bs.length + 1 < 2 ^ 32)
    (files : List OutFile) (hr : Loop.Returns (genStep c o bs) GenState.init files) (F : OutFile) (hF : F ∈ files) :
    ∃ stem, F.name = stem ++ c!".cpp" ∧
      ∀ x ∈ stem, isAlpha x = true ∨ isDigit x = true ∨ x = '_' ∨ x = '/' ∨ x = '<' ∨ x = '>' := by
  obtain ⟨np, n, b, hb, hk, h1, _⟩ := gen_name hn hr hF
  refine ⟨_, h1, ?_⟩
  have := fileStem_safe (o := o) (np := np) (n := n) (by
    rw [hk, fileKey, hflat]; exact fun x hx => fileNamePrefix_safe hx)
  intro x hx
  have := this x hx
  simp only [safeChar, isAlnum, Bool.or_eq_true, beq_iff_eq] at this
  rcases this with (((h | h) | h) | h) | h
  · rcases h with h | h <;> simp [h]
  all_goals simp [h]

/-- In flat mode the names are the root module's name, `_` and a number. -/
theorem C21_names_flat (c : Config) (o : Opts) (hflat : o.flat = true) (bs : List SortItem) (hn : bs.length + 1 < 2 ^ 32)
    (files : List OutFile) (hr : Loop.Returns (genStep c o bs) GenState.init files) (F : OutFile) (hF : F ∈ files) :
    ∃ n, F.name = o.root ++ c!"_" ++ natStr n ++ c!".cpp" := by
  obtain ⟨np, n, b, hb, hk, h1, _⟩ := gen_name hn hr hF
  refine ⟨n, ?_⟩
  rw [h1, hk, fileKey, fileStem, hflat]
  simp

example : fileNamePrefix c!"<../core/pose.tmpl.hh>" c!"core" = c!"__/core/pose_tmpl" := by decide
example : fileNamePrefix c!"\"../my file.h\"" c!"n" = c!"_/myfile_" := by decide

/-! ## C22 -/

/-- In flat mode no two sources (the root module file included) and no two functions share a name. -/
theorem C22_flat_distinct (c : Config) (o : Opts) (hflat : o.flat = true) (bs : List SortItem) (hn : bs.length + 1 < 2 ^ 32)
    (files : List OutFile) (hr : Loop.Returns (genStep c o bs) GenState.init files) :
    (sourcesOf o files).Nodup ∧ (functionNames files).Nodup := by
  obtain ⟨keys, h1, h2, h3⟩ := gen_keys hn hr
  have hkey : ∀ p ∈ keys, p.1 = o.root ++ c!"_" := by
    intro p hp
    obtain ⟨b, _, _, hk⟩ := h2 p hp
    rw [hk, fileKey, hflat]; rfl
  obtain ⟨hn1, hn2⟩ := names_of_keys h3
  refine ⟨?_, ?_⟩
  · unfold sourcesOf
    rw [List.nodup_cons, hn1]
    constructor
    · intro hm
      obtain ⟨p, hp, he⟩ := List.mem_map.1 hm
      rw [hkey p hp, fileStem, hflat, if_pos rfl] at he
      have he := List.append_cancel_right he
      have := congrArg List.length he
      simp at this
    · refine nodup_map_on h1 ?_
      intro p hp q hq he
      have he := List.append_cancel_right he
      rw [hkey p hp, hkey q hq] at he
      exact Prod.ext ((hkey p hp).trans (hkey q hq).symm) (stem_inj_flat hflat he)
  · unfold functionNames
    rw [hn2]
    refine nodup_map_on h1 ?_
    intro p hp q hq he
    simp only [functionName] at he
    have he := List.append_cancel_left he
    rw [stem_rep, stem_rep, hkey p hp, hkey q hq] at he
    exact Prod.ext ((hkey p hp).trans (hkey q hq).symm) (stem_inj_flat hflat he)

/-- Otherwise it is true if no header path looks like another header path followed by `_` and a number (where functions count `/`
as `_`), and none gives the name of the root module. -/
theorem C22_headers_partial (c : Config) (o : Opts) (hflat : o.flat = false) (bs : List SortItem) (hn : bs.length + 1 < 2 ^ 32)
    (hroot : ∀ b ∈ bs, ∀ n, fileStem o (fileKey o b) n ≠ o.root)
    (hnum : ∀ a ∈ bs, ∀ b ∈ bs, ∀ k, 0 < k → replaceAll (fileKey o a) c!"/" c!"_" ≠ replaceAll (fileKey o b) c!"/" c!"_" ++ c!"_" ++ natStr k)
    (hslash : ∀ a ∈ bs, ∀ b ∈ bs, replaceAll (fileKey o a) c!"/" c!"_" = replaceAll (fileKey o b) c!"/" c!"_" → fileKey o a = fileKey o b)
    (files : List OutFile) (hr : Loop.Returns (genStep c o bs) GenState.init files) :
    (sourcesOf o files).Nodup ∧ (functionNames files).Nodup := by
  obtain ⟨keys, h1, h2, h3⟩ := gen_keys hn hr
  obtain ⟨hn1, hn2⟩ := names_of_keys h3
  have hinj : ∀ p ∈ keys, ∀ q ∈ keys,
      replaceAll (fileStem o p.1 p.2) c!"/" c!"_" = replaceAll (fileStem o q.1 q.2) c!"/" c!"_" → p = q := by
    intro p hp q hq he
    obtain ⟨a, ha, _, hka⟩ := h2 p hp
    obtain ⟨b, hb, _, hkb⟩ := h2 q hq
    rw [stem_rep, stem_rep, hka, hkb] at he
    obtain ⟨e1, e2⟩ := stem_inj hflat (hnum a ha b hb) (hnum b hb a ha) he
    exact Prod.ext (hka.trans ((hslash a ha b hb e1).trans hkb.symm)) e2
  refine ⟨?_, ?_⟩
  · unfold sourcesOf
    rw [List.nodup_cons, hn1]
    constructor
    · intro hm
      obtain ⟨p, hp, he⟩ := List.mem_map.1 hm
      obtain ⟨a, ha, _, hka⟩ := h2 p hp
      refine hroot a ha p.2 ?_
      rw [← hka]
      exact List.append_cancel_right he
    · refine nodup_map_on h1 ?_
      intro p hp q hq he
      exact hinj p hp q hq (by rw [List.append_cancel_right he])
  · unfold functionNames
    rw [hn2]
    refine nodup_map_on h1 ?_
    intro p hp q hq he
    exact hinj p hp q hq (List.append_cancel_left he)

namespace Ex
/-- A bound declaration of header `h`. -/
def at' (d : Decl) (h : Str) : SortItem := ⟨{ d with incl := h }, d.genCode⟩
end Ex

/-- A header `h_1.hh` and a second file for `h.hh` get the same name. -/
theorem C22_split_collides_false : ∃ files, Loop.Returns
    (genStep Ex.cfg (Ex.opts 5) [Ex.at' Ex.dE c!"<h.hh>", Ex.at' Ex.dS c!"<h.hh>", Ex.at' Ex.dB c!"<h_1.hh>"]) GenState.init files ∧
    files.map (·.name) = [c!"h.cpp", c!"h_1.cpp", c!"h_1.cpp"] := ⟨_, ⟨5, rfl⟩, by decide⟩

/-- Headers `a/b.hh` and `a_b.hh` get different files but the same function. -/
theorem C22_slash_collides_false : ∃ files, Loop.Returns
    (genStep Ex.cfg (Ex.opts 5) [Ex.at' Ex.dE c!"<a/b.hh>", Ex.at' Ex.dB c!"<a_b.hh>"]) GenState.init files ∧
    files.map (·.name) = [c!"a/b.cpp", c!"a_b.cpp"] ∧ functionNames files = [c!"bind_a_b", c!"bind_a_b"] :=
  ⟨_, ⟨4, rfl⟩, by decide, by decide⟩

/-- A header with the name of the module gets the name of the root module file. -/
theorem C22_root_collides_false : ∃ files, Loop.Returns
    (genStep Ex.cfg (Ex.opts 5) [Ex.at' Ex.dE c!"<mod.hh>"]) GenState.init files ∧
    sourcesOf (Ex.opts 5) files = [c!"mod.cpp", c!"mod.cpp"] := ⟨_, ⟨4, rfl⟩, by decide⟩

example : ∃ files, Loop.Returns (genStep Ex.cfg (Ex.opts 30 false true) Ex.sorted) GenState.init files ∧
    sourcesOf (Ex.opts 30 false true) files = [c!"mod.cpp", c!"mod_0.cpp", c!"mod_1.cpp"] := ⟨_, ⟨6, rfl⟩, by decide⟩

/-- The hypotheses of `C22_headers_partial` hold when all declarations come from one header. -/
example : (∀ b ∈ Ex.sorted, ∀ n, fileStem (Ex.opts 5) (fileKey (Ex.opts 5) b) n ≠ (Ex.opts 5).root) ∧
    (∀ a ∈ Ex.sorted, ∀ b ∈ Ex.sorted, ∀ k, 0 < k → replaceAll (fileKey (Ex.opts 5) a) c!"/" c!"_" ≠
      replaceAll (fileKey (Ex.opts 5) b) c!"/" c!"_" ++ c!"_" ++ natStr k) ∧
    (∀ a ∈ Ex.sorted, ∀ b ∈ Ex.sorted, replaceAll (fileKey (Ex.opts 5) a) c!"/" c!"_" =
      replaceAll (fileKey (Ex.opts 5) b) c!"/" c!"_" → fileKey (Ex.opts 5) a = fileKey (Ex.opts 5) b) := by
  have hk : ∀ b ∈ Ex.sorted, fileKey (Ex.opts 5) b = c!"h" := by decide
  refine ⟨?_, ?_, ?_⟩
  · intro b hb n h
    rw [hk b hb] at h
    unfold fileStem at h
    simp [Ex.opts] at h
  · intro a ha b hb k _ h
    rw [hk a ha, hk b hb] at h
    have := congrArg List.length h
    simp at this
  · intro a ha b hb _
    rw [hk a ha, hk b hb]

/-! ## C31 -/

/-- The declarations emitted, in the order in which the functions are called, are exactly the bound ones in sorted order. -/
theorem C31_emitted_once_in_order (c : Config) (o : Opts) (bs : List SortItem) (hn : bs.length + 1 < 2 ^ 32) (files : List OutFile)
    (hr : Loop.Returns (genStep c o bs) GenState.init files) : files.flatMap declsOf = expected c bs := gen_decls hn hr

/-- Each emitted declaration contributes its own text, its trampoline code and its includes to its file. -/
theorem C31_text_of_file (c : Config) (o : Opts) (bs : List SortItem) (hn : bs.length + 1 < 2 ^ 32) (files : List OutFile)
    (hr : Loop.Returns (genStep c o bs) GenState.init files) (F : OutFile) (hF : F ∈ files) (b : SortItem) (hb : b ∈ declsOf F) :
    b.code <:+: codeText F.body ∧ codeText F.body <:+: F.text c o ∧ b.pre <:+: F.pre ∧ F.pre <:+: F.text c o ∧
    ∀ x ∈ b.decl.includes, x ∈ F.includes := by
  have hmem : Piece.code b ∈ F.body := by
    obtain ⟨p, hp, he⟩ := List.mem_filterMap.1 hb
    cases p <;> simp [declOf] at he
    subst he; exact hp
  obtain ⟨h1, h2⟩ := gen_each hn hr (fun F => (∀ x, Piece.code x ∈ F.body → x.pre <:+: F.pre) ∧
      ∀ x, Piece.code x ∈ F.body → ∀ y ∈ x.decl.includes, y ∈ F.includes) (by
    intro s s' b F k hb hc hw
    exact ⟨fun x hx => write_pre hw hx, hw.incl⟩) F hF
  refine ⟨?_, ?_, h1 b hmem, ?_, h2 b hmem⟩
  · obtain ⟨u, v, e⟩ := List.append_of_mem hmem
    rw [e]
    exact ⟨codeText u, codeText v, by simp [codeText, Piece.text]⟩
  · exact ⟨generateIncludeDirectives c F.includes ++ moduleHeader c o.stl ++ F.pre ++ c!"void " ++ F.fn ++ functionSuffix ++ c!"\n{\n",
      c!"}\n", rfl⟩
  · exact ⟨generateIncludeDirectives c F.includes ++ moduleHeader c o.stl,
      c!"void " ++ F.fn ++ functionSuffix ++ c!"\n{\n" ++ codeText F.body ++ c!"}\n", by unfold OutFile.text; simp only [List.append_assoc]⟩

example : ∃ files, Loop.Returns (genStep Ex.cfg (Ex.opts 15) Ex.sorted) GenState.init files ∧
    files.map (fun F => (F.name, (declsOf F).map (·.decl.ident))) =
      [(c!"h.cpp", [c!"m::S", c!"m::E"]), (c!"h_1.cpp", [c!"n::B", c!"n::A"])] := ⟨_, ⟨6, rfl⟩, by decide⟩

/-! ## C32 -/

/-- Every limit of at least one character: the loop ends, within two iterations per declaration. -/
theorem C32_terminates (c : Config) (o : Opts) (bs : List SortItem) (hn : bs.length + 1 < 2 ^ 32) (hmax : 1 ≤ o.maxLen) :
    ∃ files, Loop.run (genStep c o bs) (2 * bs.length + 4) GenState.init = some files := gen_terminates hn hmax

/-- Limit zero: the loop never ends, unless nothing is bound. -/
theorem C32_zero_diverges (c : Config) (o : Opts) (bs : List SortItem) (hn : bs.length + 1 < 2 ^ 32) (hmax : o.maxLen = 0)
    (hb : ∃ b ∈ bs, b.code ≠ []) : Loop.Diverges (genStep c o bs) GenState.init := gen_diverges hn hmax hb

example : Ex.sorted.length + 1 < 2 ^ 32 ∧ ∃ b ∈ Ex.sorted, b.code ≠ [] := ⟨by decide, Ex.bnd Ex.dS, by decide, by decide⟩

/-! ## C33 -/

/-- With `+binder_for_namespace`, the code for the namespace is exactly one call, or nothing if nothing of it is bound. -/
theorem C33_namespace_binder (c : Config) (o : Opts) (bs : List SortItem) (hn : bs.length + 1 < 2 ^ 32) (files : List OutFile)
    (hr : Loop.Returns (genStep c o bs) GenState.init files) (N f : Str) (hN : c.binderForNamespaces N = some f) :
    piecesFor files N = if ∃ x ∈ bs, x.code ≠ [] ∧ x.decl.ns = N then [.nsCall f N] else [] := gen_nsCall hn hr hN

/-- With `+add_on_binder_for_namespace` (and no `+binder_for_namespace` for the same namespace) the code for the namespace
starts with one call, and after it there are only declarations. -/
theorem C33_add_on_partial (c : Config) (o : Opts) (bs : List SortItem) (hn : bs.length + 1 < 2 ^ 32) (files : List OutFile)
    (hr : Loop.Returns (genStep c o bs) GenState.init files) (N f : Str) (hN : c.binderForNamespaces N = none)
    (hA : c.addOnBinderForNamespaces N = some f) (hb : ∃ x ∈ bs, x.code ≠ [] ∧ x.decl.ns = N) :
    ∃ rest, piecesFor files N = .addOn f N :: rest ∧ ∀ p ∈ rest, (∃ n id, p = .trace n id) ∨ ∃ b, p = .code b :=
  gen_addOn hn hr hN hA hb

/-- Calls for a namespace are only made in the files of that namespace. -/
theorem C33_calls_in_own_files (c : Config) (o : Opts) (bs : List SortItem) (hn : bs.length + 1 < 2 ^ 32) (files : List OutFile)
    (hr : Loop.Returns (genStep c o bs) GenState.init files) (F : OutFile) (hF : F ∈ files) (f N : Str)
    (h : Piece.nsCall f N ∈ F.body ∨ Piece.addOn f N ∈ F.body) : F.ns = N := by
  refine gen_each hn hr (fun F => ∀ f N, (Piece.nsCall f N ∈ F.body ∨ Piece.addOn f N ∈ F.body) → F.ns = N) ?_ F hF f N h
  intro s s' b F k hb hc hw f N h
  rw [hw.ns]
  exact write_call_ns hw h

/-- If both directives name the namespace, the add-on is never called. -/
theorem C33_both_false : ∃ files, Loop.Returns (genStep Ex.cfgBoth (Ex.opts 10) Ex.sorted) GenState.init files ∧
    piecesFor files c!"m" = [.nsCall c!"bind_m" c!"m"] ∧ ∀ F ∈ files, Piece.addOn c!"add_m" c!"m" ∉ F.body :=
  ⟨_, ⟨7, rfl⟩, by decide, by decide⟩

example : Ex.cfgNs.binderForNamespaces c!"m" = some c!"bind_m" ∧ (∃ x ∈ Ex.sorted, x.code ≠ [] ∧ x.decl.ns = c!"m") ∧
    Ex.cfgAdd.binderForNamespaces c!"m" = none ∧ Ex.cfgAdd.addOnBinderForNamespaces c!"m" = some c!"add_m" :=
  ⟨by decide, ⟨Ex.bnd Ex.dS, by decide, by decide, by decide⟩, by decide, by decide⟩
/-- The call alone exceeds the limit: it gets a file of its own. -/
example : ∃ files, Loop.Returns (genStep Ex.cfgAdd (Ex.opts 10) Ex.sorted) GenState.init files ∧
    (files.map fun F => F.body.length) = [1, 1, 1, 1, 1] := ⟨_, ⟨9, rfl⟩, by decide⟩

/-! ## C34 -/

/-- All declarations of a file belong to its namespace. -/
theorem C34_one_namespace (c : Config) (o : Opts) (bs : List SortItem) (hn : bs.length + 1 < 2 ^ 32) (files : List OutFile)
    (hr : Loop.Returns (genStep c o bs) GenState.init files) (F : OutFile) (hF : F ∈ files) (b : SortItem) (hb : b ∈ declsOf F) :
    b.decl.ns = F.ns := by
  refine gen_each hn hr (fun F => ∀ b ∈ declsOf F, b.decl.ns = F.ns) ?_ F hF b hb
  intro s s' b F k _ _ hw x hx
  rw [write_decls hw] at hx
  rw [hw.ns]
  exact hw.taken x (List.mem_filter.1 hx).1

/-- Without its last addition (one declaration or one namespace-level call) the code of a file is below the limit. -/
theorem C34_size (c : Config) (o : Opts) (bs : List SortItem) (hn : bs.length + 1 < 2 ^ 32) (hmax : 1 ≤ o.maxLen) (files : List OutFile)
    (hr : Loop.Returns (genStep c o bs) GenState.init files) (F : OutFile) (hF : F ∈ files) (hne : F.body ≠ []) :
    ∃ u g, F.body = u ++ g ∧ OneEntry g ∧ (codeText u).length < o.maxLen := by
  refine gen_each hn hr (fun F => F.body ≠ [] → ∃ u g, F.body = u ++ g ∧ OneEntry g ∧ (codeText u).length < o.maxLen) ?_ F hF hne
  intro s s' b F k _ _ hw hne
  exact write_size hmax hw hne

/-! ## C35 -/

/-- Sub-modules are created parents first; afterwards exactly the root module and the namespaces exist. -/
theorem C35_modules_created (bs : List SortItem) (hns : ∀ b ∈ bs, b.code ≠ [] → ¬ c!"::" <+: b.decl.ns) :
    createModules [[]] (subModules (allNestedNamespaces bs)) = some ([] :: allNestedNamespaces bs) := createModules_all hns

/-- Every module that the emitted code looks up exists. -/
theorem C35_lookups_succeed (c : Config) (o : Opts) (bs : List SortItem) (hn : bs.length + 1 < 2 ^ 32) (files : List OutFile)
    (hr : Loop.Returns (genStep c o bs) GenState.init files) (F : OutFile) (hF : F ∈ files) (p : Piece) (hp : p ∈ F.body) (N : Str)
    (hN : moduleUsed p = some N) : N = [] ∨ N ∈ allNestedNamespaces bs := by
  have key := gen_each hn hr (fun F => (∃ b ∈ bs, b.code ≠ [] ∧ b.decl.ns = F.ns) ∧ ∀ p ∈ F.body, ∀ N, moduleUsed p = some N → N = F.ns) (by
    intro s s' b F k hb hc hw
    refine ⟨⟨b, List.mem_of_getElem? hb, hc, hw.ns.symm⟩, ?_⟩
    intro p hp N hN
    rw [hw.ns]
    cases p with
    | nsCall f M => simp only [moduleUsed, Option.some.injEq] at hN; subst hN; exact (write_call_ns hw (.inl hp)).symm
    | addOn f M => simp only [moduleUsed, Option.some.injEq] at hN; subst hN; exact (write_call_ns hw (.inr hp)).symm
    | trace n id => simp [moduleUsed] at hN
    | code x =>
      simp only [moduleUsed, Option.some.injEq] at hN
      subst hN
      have hx : x ∈ declsOf F := List.mem_filterMap.2 ⟨_, hp, rfl⟩
      rw [write_decls hw] at hx
      exact hw.taken x (List.mem_filter.1 hx).1) F hF
  obtain ⟨⟨b, hb, hc, hbn⟩, hall⟩ := key
  have := hall p hp N hN
  subst this
  by_cases h0 : F.ns = []
  · exact .inl h0
  · refine .inr (mem_allNested.2 ⟨b, hb, hc, ?_⟩)
    rw [hbn]
    exact self_mem_ancestors (Nat.le_refl _) h0

namespace Ex
def deep : List SortItem := [bnd { dE with ns := c!"a::b::c" }, bnd { dS with ns := c!"a::b" }, bnd { dB with ns := c!"b::z" }]
end Ex

example : (∀ b ∈ Ex.deep, b.code ≠ [] → ¬ c!"::" <+: b.decl.ns) ∧ subModules (allNestedNamespaces Ex.deep) =
    [([], c!"a"), (c!"a", c!"b"), (c!"a::b", c!"c"), ([], c!"b"), (c!"b", c!"z")] := by decide

/-! ## C36 -/

/-- The whole run: declarations are offered, bound, sorted and written. Each base class a class statement lists is a builtin, or
a statement before it registers it. Hypotheses: a class name belongs to one class; binding a class requests each of its
non-builtin bases by a type name that denotes an eligible declaration, if the base is declared at all (what class.cpp:951-977 and
type.cpp do, see `C61_bases_requested`); and `+binder_for_namespace` does not replace the namespace of a class. -/
theorem C36_bases_registered_partial (c : Config) (o : Opts) (offers : List Decl) (hp : ∀ d ∈ offers, d.builtin = false → d.genCode ≠ [])
    (hclass : ∀ d ∈ offers, d.record = none → d.deps = [])
    (hname : ∀ d ∈ offers, ∀ base ∈ d.deps, ∀ e ∈ offers, ∀ C, e.record = some C → C.name = base.name → C = base)
    (hreq : ∀ d ∈ offers, ∀ base ∈ d.deps, base.builtin = false → ∃ t ∈ d.requests, ∀ e ∈ offers, e.record = some base →
      Denotes (firstSeen offers) t e ∧ Eligible e)
    (hns : ∀ d ∈ offers, d.record.isSome = true → c.binderForNamespaces d.ns = none)
    (st : BindState) (hbind : Loop.Returns (bindStep (register offers)) (bindStart (register offers)) st)
    (bs : List SortItem) (hsort : Loop.Returns sortStep (sortInput (register offers) st) (some bs))
    (hn : bs.length + 1 < 2 ^ 32) (files : List OutFile) (hr : Loop.Returns (genStep c o bs) GenState.init files)
    (u v : List SortItem) (b : SortItem) (hs : files.flatMap declsOf = u ++ b :: v) (base : Rec) (hb : base ∈ b.deps) :
    base.builtin = true ∨ ∃ b' ∈ u, b'.decl.record = some base := by
  rw [C31_emitted_once_in_order c o bs hn files hr] at hs
  cases hbi : base.builtin with
  | true => exact .inl rfl
  | false =>
    right
    have hs' := hs
    unfold expected at hs'
    obtain ⟨l1, l2, rfl, hl1, hl2⟩ := List.filter_eq_append_iff.1 hs'
    obtain ⟨l3, l4, rfl, hl3, hpb, hl4⟩ := List.filter_eq_cons_iff.1 hl2
    have hdeps : b.code ≠ [] ∧ base ∈ b.decl.deps := by
      unfold SortItem.deps at hb
      split at hb
      · rename_i hc; exact ⟨by intro h; simp [h] at hc, hb⟩
      · simp at hb
    have hperm := C28_permutation _ _ hsort
    have hof : ∀ x ∈ l1 ++ (l3 ++ b :: l4), ∃ i, (register offers).binders[i]? = some x.decl ∧ x.code = st.code i ∧ x.decl ∈ offers := by
      intro x hx
      obtain ⟨i, h1, h2⟩ := mem_sortInput (hperm.mem_iff.1 hx)
      refine ⟨i, h1, h2, ?_⟩
      have := List.mem_of_getElem? h1
      rw [register_binders] at this
      exact mem_firstSeen this
    obtain ⟨i, hi, hci, hoff⟩ := hof b (by simp)
    have hrec : b.decl.record.isSome = true := by
      cases hx : b.decl.record with
      | none => rw [hclass _ hoff hx] at hdeps; simp at hdeps
      | some _ => rfl
    obtain ⟨b', hb', C, hC, hCn⟩ := C29_bases_first _ _ hsort (l1 ++ l3) l4 b (by simp) base ⟨hrec, hb, hbi⟩
    have hb'm : b' ∈ l1 ++ (l3 ++ b :: l4) := by
      rcases List.mem_append.1 hb' with h | h <;> simp [h]
    obtain ⟨j, hj, hcj, hoff'⟩ := hof b' hb'm
    have hCb : C = base := hname _ hoff base hdeps.2 _ hoff' C hC hCn
    subst hCb
    obtain ⟨t, ht, hall⟩ := hreq _ hoff C hdeps.2 hbi
    obtain ⟨hden, hel⟩ := hall _ hoff' hC
    have hB : Bound (firstSeen offers) b.decl := by
      have := C24_least_closure offers hp st hbind i b.decl hi
      split at this
      · assumption
      · exact absurd (hci.trans this) hdeps.1
    have hB' : Bound (firstSeen offers) b'.decl := .mentioned hB ht hden hel
    have hcode : b'.code ≠ [] := by
      rw [hcj, C24_least_closure offers hp st hbind j b'.decl hj, if_pos hB']
      exact hp _ hoff' hel.2.2
    have hkeep : (!b'.code.isEmpty && (c.binderForNamespaces b'.decl.ns).isNone) = true := by
      rw [hns _ hoff' (by rw [hC]; rfl)]
      cases hx : b'.code with
      | nil => exact absurd hx hcode
      | cons _ _ => rfl
    refine ⟨b', ?_, hC⟩
    rcases List.mem_append.1 hb' with h | h
    · rw [← hl1]; exact List.mem_filter.2 ⟨h, hkeep⟩
    · exact absurd hkeep (hl3 b' h)

/-- With the same hypotheses and no builtin among the listed bases, importing the module registers all classes without error. -/
theorem C36_import_succeeds_partial (c : Config) (o : Opts) (offers : List Decl) (hp : ∀ d ∈ offers, d.builtin = false → d.genCode ≠ [])
    (hclass : ∀ d ∈ offers, d.record = none → d.deps = [])
    (hbuiltin : ∀ d ∈ offers, ∀ base ∈ d.deps, base.builtin = false)
    (hname : ∀ d ∈ offers, ∀ base ∈ d.deps, ∀ e ∈ offers, ∀ C, e.record = some C → C.name = base.name → C = base)
    (hreq : ∀ d ∈ offers, ∀ base ∈ d.deps, base.builtin = false → ∃ t ∈ d.requests, ∀ e ∈ offers, e.record = some base →
      Denotes (firstSeen offers) t e ∧ Eligible e)
    (hns : ∀ d ∈ offers, d.record.isSome = true → c.binderForNamespaces d.ns = none)
    (st : BindState) (hbind : Loop.Returns (bindStep (register offers)) (bindStart (register offers)) st)
    (bs : List SortItem) (hsort : Loop.Returns sortStep (sortInput (register offers) st) (some bs))
    (hn : bs.length + 1 < 2 ^ 32) (files : List OutFile) (hr : Loop.Returns (genStep c o bs) GenState.init files) :
    (registerClasses [] (files.flatMap declsOf)).isSome = true := by
  apply registerClasses_some
  intro u b v hs base hb
  right
  rcases C36_bases_registered_partial c o offers hp hclass hname hreq hns st hbind bs hsort hn files hr u v b hs base hb with h | h
  · exfalso
    have hm : b ∈ files.flatMap declsOf := by rw [hs]; simp
    rw [C31_emitted_once_in_order c o bs hn files hr] at hm
    have hm := (C28_permutation _ _ hsort).mem_iff.1 (List.mem_filter.1 hm).1
    obtain ⟨i, hi, _⟩ := mem_sortInput hm
    have hoff := List.mem_of_getElem? hi
    rw [register_binders] at hoff
    have hd : base ∈ b.decl.deps := by
      unfold SortItem.deps at hb
      split at hb
      · exact hb
      · simp at hb
    rw [hbuiltin _ (mem_firstSeen hoff) base hd] at h
    cases h
  · exact h

namespace Ex
/-- `struct n::L : std::less<int>`: a base that counts as a builtin is listed, but nobody registers it. -/
def recL : Rec := ⟨9, c!"std::less", true⟩
def dL : Decl := cls 8 c!"n" c!"L" true false false [c!"struct std::less<int>"] [recL]
/-- A class whose base lies in a namespace that has its own binder. -/
def offersNs : List Decl := [dB, dS]
end Ex

/-- The hypotheses of `C36_import_succeeds_partial` hold of the example, whose run is the following. -/
example : (∀ d ∈ Ex.offers, d.record = none → d.deps = []) ∧ (∀ d ∈ Ex.offers, ∀ base ∈ d.deps, base.builtin = false) ∧
    (∀ d ∈ Ex.offers, ∀ base ∈ d.deps, ∀ e ∈ Ex.offers, ∀ C, e.record = some C → C.name = base.name → C = base) ∧
    (∀ d ∈ Ex.offers, ∀ base ∈ d.deps, base.builtin = false → ∃ t ∈ d.requests, ∀ e ∈ Ex.offers, e.record = some base →
      Denotes (firstSeen Ex.offers) t e ∧ Eligible e) := by
  refine ⟨by decide, by decide, ?_, ?_⟩
  · intro d hd base hb e he C hC
    revert hb
    simp only [Ex.offers, List.mem_cons, List.not_mem_nil, or_false] at hd he
    rcases hd with rfl | rfl | rfl | rfl | rfl | rfl | rfl | rfl <;>
      simp [Ex.dA, Ex.dB, Ex.dS, Ex.dE, Ex.dU, Ex.dF, Ex.cls, Ex.recB, Ex.recS] <;> rintro rfl <;>
      rcases he with rfl | rfl | rfl | rfl | rfl | rfl | rfl | rfl <;>
      simp [Ex.dA, Ex.dB, Ex.dS, Ex.dE, Ex.dU, Ex.dF, Ex.cls] at hC <;> subst hC <;> decide
  · have hB : Denotes (firstSeen Ex.offers) c!"class n::B" Ex.dB := ⟨[Ex.dA, Ex.dF, Ex.dU], [Ex.dE, Ex.dS], by decide, by decide, by decide⟩
    have hS : Denotes (firstSeen Ex.offers) c!"class m::S" Ex.dS := ⟨[Ex.dA, Ex.dF, Ex.dU, Ex.dB, Ex.dE], [], by decide, by decide, by decide⟩
    have eB : ∀ e ∈ Ex.offers, e.record = some Ex.recB → e = Ex.dB := by decide
    have eS : ∀ e ∈ Ex.offers, e.record = some Ex.recS → e = Ex.dS := by decide
    have kB : ∀ e ∈ Ex.offers, e.record = some Ex.recB → Denotes (firstSeen Ex.offers) c!"class n::B" e ∧ Eligible e := by
      intro e he hr; rw [eB e he hr]; exact ⟨hB, rfl, rfl, rfl⟩
    have kS : ∀ e ∈ Ex.offers, e.record = some Ex.recS → Denotes (firstSeen Ex.offers) c!"class m::S" e ∧ Eligible e := by
      intro e he hr; rw [eS e he hr]; exact ⟨hS, rfl, rfl, rfl⟩
    intro d hd base hb _
    simp only [Ex.offers, List.mem_cons, List.not_mem_nil, or_false] at hd
    have hA : ∀ base ∈ Ex.dA.deps, base = Ex.recB := by decide
    have hBd : ∀ base ∈ Ex.dB.deps, base = Ex.recS := by decide
    rcases hd with rfl | rfl | rfl | rfl | rfl | rfl | rfl | rfl
    · rw [hA base hb]; exact ⟨_, by decide, kB⟩
    · exact absurd hb List.not_mem_nil
    · exact absurd hb List.not_mem_nil
    · rw [hA base hb]; exact ⟨_, by decide, kB⟩
    · rw [hBd base hb]; exact ⟨_, by decide, kS⟩
    · exact absurd hb List.not_mem_nil
    · exact absurd hb List.not_mem_nil
    · rw [hBd base hb]; exact ⟨_, by decide, kS⟩

example : ∃ st bs files, Loop.Returns (bindStep (register Ex.offers)) (bindStart (register Ex.offers)) st ∧
    Loop.Returns sortStep (sortInput (register Ex.offers) st) (some bs) ∧
    Loop.Returns (genStep Ex.cfg (Ex.opts 15) bs) GenState.init files ∧
    (files.flatMap declsOf).map (·.decl.ident) = [c!"m::S", c!"n::B", c!"m::E", c!"n::A"] :=
  ⟨_, _, _, ⟨3, rfl⟩, ⟨4, rfl⟩, ⟨9, rfl⟩, by decide⟩

/-- A builtin base is listed but never registered: importing the module fails. -/
theorem C36_builtin_base_false : ∃ st bs files, Loop.Returns (bindStep (register [Ex.dL])) (bindStart (register [Ex.dL])) st ∧
    Loop.Returns sortStep (sortInput (register [Ex.dL]) st) (some bs) ∧
    Loop.Returns (genStep Ex.cfg (Ex.opts 15) bs) GenState.init files ∧ registerClasses [] (files.flatMap declsOf) = none :=
  ⟨_, _, _, ⟨2, rfl⟩, ⟨1, rfl⟩, ⟨3, rfl⟩, by decide⟩

/-- The base class is in a namespace that `+binder_for_namespace` takes over: nothing generated registers it. -/
theorem C36_namespace_binder_false : ∃ st bs files,
    Loop.Returns (bindStep (register Ex.offersNs)) (bindStart (register Ex.offersNs)) st ∧
    Loop.Returns sortStep (sortInput (register Ex.offersNs) st) (some bs) ∧
    Loop.Returns (genStep Ex.cfgNs (Ex.opts 15) bs) GenState.init files ∧ registerClasses [] (files.flatMap declsOf) = none :=
  ⟨_, _, _, ⟨3, rfl⟩, ⟨2, rfl⟩, ⟨4, rfl⟩, by decide⟩

/-! ## C37 -/

/-- Reading the `.sources` file line by line gives the root file and the written files in order of writing. -/
theorem C37_sources_file (c : Config) (o : Opts) (hroot : '\n' ∉ o.root) (bs : List SortItem) (hn : bs.length + 1 < 2 ^ 32)
    (files : List OutFile) (hr : Loop.Returns (genStep c o bs) GenState.init files) :
    IsLines '\n' (sourcesText o files) ((o.root ++ c!".cpp") :: files.map (·.name)) := by
  have h : ∀ l ∈ (o.root ++ c!".cpp") :: files.map (·.name), '\n' ∉ l := by
    intro l hl
    rcases List.mem_cons.1 hl with rfl | hl
    · simp [hroot]
    · obtain ⟨F, hF, rfl⟩ := List.mem_map.1 hl
      exact (gen_no_newline hn hr hroot hF).1
  exact isLines_of_eq h (by simp [sourcesText, sourcesOf, flatMap_terminated, terminated])

/-- The root module declares one function per file, in order, and calls each once, in order: these are the lines of the two blocks. -/
theorem C37_functions (c : Config) (o : Opts) (hroot : '\n' ∉ o.root) (bs : List SortItem) (hn : bs.length + 1 < 2 ^ 32)
    (files : List OutFile) (hr : Loop.Returns (genStep c o bs) GenState.init files) (nss : List Str) :
    ∃ declBlock callBlock a b d, rootText c o nss (functionNames files) = a ++ declBlock ++ b ++ callBlock ++ d ∧
      IsLines '\n' declBlock (files.map fun F => c!"void " ++ F.fn ++ functionSuffix ++ c!";") ∧
      IsLines '\n' callBlock (files.map fun F => c!"\t" ++ F.fn ++ c!"(M);") := by
  refine ⟨declsText (functionNames files), callsText (functionNames files), rootHead c, rootMiddle o nss, "\n}\n".toList, rfl, ?_, ?_⟩
  · refine isLines_of_eq ?_ ?_
    · intro l hl
      obtain ⟨F, hF, rfl⟩ := List.mem_map.1 hl
      have := (gen_no_newline hn hr hroot hF).2
      have hs : '\n' ∉ functionSuffix := by decide
      simp [this, hs]
    · unfold declsText functionNames
      rw [List.flatMap_map, ← flatMap_terminated, List.flatMap_map]
      simp
  · refine isLines_of_eq ?_ ?_
    · intro l hl
      obtain ⟨F, hF, rfl⟩ := List.mem_map.1 hl
      have := (gen_no_newline hn hr hroot hF).2
      simp [this]
    · unfold callsText functionNames
      rw [List.flatMap_map, ← flatMap_terminated, List.flatMap_map]
      simp

/-- Each file defines its own function; with `--single-file` the same texts go to the root file, in the same order. -/
theorem C37_definitions (c : Config) (o : Opts) (F : OutFile) (files : List OutFile) (nss : List Str) :
    (∃ head, F.text c o = head ++ (c!"void " ++ F.fn ++ functionSuffix ++ c!"\n{\n" ++ codeText F.body ++ c!"}\n")) ∧
    (o.single = true → ∃ rest, rootFileText c o nss files =
      (files.flatMap fun f => c!"// File: " ++ f.name ++ c!"\n" ++ f.text c o ++ c!"\n\n") ++ (rootText c o nss (functionNames files) ++ rest)) := by
  refine ⟨⟨generateIncludeDirectives c F.includes ++ moduleHeader c o.stl ++ F.pre, by unfold OutFile.text; simp only [List.append_assoc]⟩, ?_⟩
  intro hs
  unfold rootFileText
  rw [if_pos hs]
  exact ⟨c!"\n// Source list file: " ++ (o.pre ++ c!"/" ++ o.root) ++ c!".sources\n" ++
    (sourcesOf o files).flatMap (fun s => c!"// " ++ s ++ c!"\n") ++
    c!"\n// Modules list file: " ++ (o.pre ++ c!"/" ++ o.root) ++ c!".modules\n// " ++ modulesText nss ++ c!"\n",
    by simp only [List.append_assoc]⟩

example : '\n' ∉ (Ex.opts 15).root := by decide

/-! ## C38 -/

/-- Exactly the namespaces of bound declarations and their ancestors. -/
theorem C38_namespaces (bs : List SortItem) (path : SortItem → List Str)
    (hpath : ∀ b ∈ bs, b.code ≠ [] → b.decl.ns = joinNs (path b) ∧ ∀ x ∈ path b, IsComponent x) (n : Str) :
    n ∈ allNestedNamespaces bs ↔ ∃ b ∈ bs, b.code ≠ [] ∧ AncestorOf (path b) n := by
  rw [mem_allNested]
  constructor
  · rintro ⟨b, hb, hc, h⟩
    obtain ⟨h1, h2⟩ := hpath b hb hc
    rw [h1] at h
    exact ⟨b, hb, hc, (ancestors_join _ _ h2 (Nat.le_refl _) n).1 h⟩
  · rintro ⟨b, hb, hc, h⟩
    obtain ⟨h1, h2⟩ := hpath b hb hc
    refine ⟨b, hb, hc, ?_⟩
    rw [h1]
    exact (ancestors_join _ _ h2 (Nat.le_refl _) n).2 h

/-- Each once, in increasing order. -/
theorem C38_sorted (bs : List SortItem) : (allNestedNamespaces bs).Pairwise (· < ·) := sorted_setOf _

/-- The `.modules` file holds them separated by spaces, with `.` for `::`. -/
theorem C38_modules_file (bs : List SortItem) (hsp : ∀ b ∈ bs, b.code ≠ [] → ' ' ∉ b.decl.ns) :
    IsLines ' ' (modulesText (allNestedNamespaces bs)) ((allNestedNamespaces bs).map fun n => replaceAll n c!"::" c!".") := by
  refine isLines_of_eq ?_ (modulesText_eq _)
  intro l hl
  obtain ⟨n, hn, rfl⟩ := List.mem_map.1 hl
  obtain ⟨b, hb, hc, h⟩ := mem_allNested.1 hn
  intro hm
  rcases mem_replaceAll hm with hm | hm
  · exact hsp b hb hc ((ancestors_prefix h).subset hm)
  · simp at hm

/-- A dotted name is the `.`-separated path. -/
theorem C38_dotted (xs : List Str) (hc : ∀ x ∈ xs, IsComponent x) : replaceAll (joinNs xs) c!"::" c!"." = [ '.' ].intercalate xs :=
  replace_join xs hc

example : modulesText (allNestedNamespaces Ex.deep) = c!"a a.b a.b.c b b.z " := by decide
example : ∀ b ∈ Ex.deep, b.code ≠ [] → ∃ xs, b.decl.ns = joinNs xs ∧ ∀ x ∈ xs, IsComponent x := by
  intro b hb _
  simp only [Ex.deep, List.mem_cons, List.not_mem_nil, or_false] at hb
  rcases hb with rfl | rfl | rfl
  · exact ⟨[c!"a", c!"b", c!"c"], rfl, by simp [IsComponent]⟩
  · exact ⟨[c!"a", c!"b"], rfl, by simp [IsComponent]⟩
  · exact ⟨[c!"b", c!"z"], rfl, by simp [IsComponent]⟩

/-! ## C39 -/

/-- No two trace statements of a run print the same text. -/
theorem C39_traces_distinct (c : Config) (o : Opts) (bs : List SortItem) (hn : bs.length + 1 < 2 ^ 32) (files : List OutFile)
    (hr : Loop.Returns (genStep c o bs) GenState.init files) : ((files.flatMap (·.body)).filterMap traceText).Nodup := by
  obtain ⟨t, ht⟩ := gen_traces hn hr
  exact nodup_traceTexts (by rw [ht]; exact List.nodup_range)

/-- The numbers printed are 0, 1, 2, ... in calling order. -/
theorem C39_traces_in_order (c : Config) (o : Opts) (bs : List SortItem) (hn : bs.length + 1 < 2 ^ 32) (files : List OutFile)
    (hr : Loop.Returns (genStep c o bs) GenState.init files) : ∃ t, (files.flatMap (·.body)).filterMap traceOf = List.range t :=
  gen_traces hn hr

/-- With `--trace` every emitted declaration is immediately preceded by a trace statement that names it. -/
theorem C39_traced (c : Config) (o : Opts) (ht : o.trace = true) (bs : List SortItem) (hn : bs.length + 1 < 2 ^ 32) (files : List OutFile)
    (hr : Loop.Returns (genStep c o bs) GenState.init files) (F : OutFile) (hF : F ∈ files) (u v : List Piece) (b : SortItem)
    (h : F.body = u ++ .code b :: v) : ∃ u' n, u = u' ++ [.trace n b.decl.ident] := by
  refine gen_each hn hr (fun F => ∀ u v b, F.body = u ++ .code b :: v → ∃ u' n, u = u' ++ [.trace n b.decl.ident]) ?_ F hF u v b h
  intro s s' b F k _ _ hw u v x h
  exact write_traced ht hw h

example : ∃ files, Loop.Returns (genStep Ex.cfg (Ex.opts 90 true) Ex.sorted) GenState.init files ∧
    (files.map fun F => F.body.filterMap traceOf) = [[0, 1], [2, 3]] := ⟨_, ⟨7, rfl⟩, by decide⟩

end Binder
