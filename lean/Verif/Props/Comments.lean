import Verif.Spec.Comments
import Verif.Lemmas.CommentRun
import Verif.Props.OutputForm
import Verif.Props.Lexical

/-!
# C85: the options for comments change nothing but comments

`--annotate-includes`, `--annotate-functions` and `--skip-line-number`.
-/

namespace Binder

open Cxx Spec

/-- C85. Two runs for the same program and the same configuration that return, one of them with other values of the options for comments (and
with whatever options for the output): the root modules run the same statements in the same order, apart from traces, and make the same
modules; so the imports have the same effect, including errors. -/
theorem C85_same_module (U : TransUnit) (k : CommentOptions) (o o' : Opts) (fs fs' gs gs' : FS) (hw : fs.WF) (hw' : gs.WF)
    (hn : U.visits.length + 1 < 2 ^ 32) (hd : DistinctNames U o) (hd' : DistinctNames U o')
    (h : U.Ends o fs (.done fs')) (h' : (commented U k).Ends o' gs (.done gs')) :
    ∃ srcs srcs' root root' pairs, Generated U o fs fs' srcs ∧ Generated (commented U k) o' gs gs' srcs' ∧ worked srcs = worked srcs' ∧
      fs'.files (rootPath o) = some root ∧ gs'.files (rootPath o') = some root' ∧ MakesModules root pairs ∧ MakesModules root' pairs ∧
      importModule pairs (importOps U.E srcs) = importModule pairs (importOps (commented U k).E srcs') := by
  obtain ⟨st, bs, files, fs1, fs2, h⟩ := ends_done h
  obtain ⟨st', bs', files', gs1, gs2, h'⟩ := ends_done h'
  have hs := h.sim h'
  have hn1 : bs.length + 1 < 2 ^ 32 := by have := h.length; omega
  have hn2 : bs'.length + 1 < 2 ^ 32 := by rw [← hs.length]; exact hn1
  have hroot := (congrArg (fun x : FS => x.files (rootPath o)) h.finish).trans (by rw [finishRun_root])
  have hroot' := (congrArg (fun x : FS => x.files (rootPath o')) h'.finish).trans (by rw [finishRun_root])
  have hcfg : (commented U k).E.cfg = U.E.cfg := by rw [commented_E]; rfl
  have hwork : worked (files.map (sourceOf U o)) = worked (files'.map (sourceOf (commented U k) o')) := by
    rw [worked_sources, worked_sources, gen_pieces hn1 h.gen, gen_pieces hn2 h'.gen, hcfg]
    exact rest_sim h h' _ hs _ (fun _ hb => hb) (fun _ hb => hb)
  refine ⟨_, _, _, _, subModules (allNestedNamespaces bs), generated_of_done h hw hn hd, generated_of_done h' hw' hn (cmt_distinct k hd'), hwork, hroot, hroot',
    (makesModules_root U.E.cfg o (allNestedNamespaces bs) files).right _, ?_, ?_⟩
  · rw [nested_sim hs]
    exact (makesModules_root _ o' (allNestedNamespaces bs') files').right _
  · rw [importOps_worked, importOps_worked, hwork, commented_E, cmt_ops]

/-- C85. Whether a run ends with an error about a missing base, or throws because of contradictory requests, does not depend on the options
for comments. -/
theorem C85_same_end (U : TransUnit) (k : CommentOptions) (o o' : Opts) (fs gs : FS) :
    (∀ fs' gs', U.Ends o fs (.done fs') → ¬ (commented U k).Ends o' gs (.exit gs')) ∧
    (∀ fs' gs', U.Ends o fs (.exit fs') → ¬ (commented U k).Ends o' gs (.done gs')) ∧
    ((commented U k).conflictIn [] ((commented U k).visits.filter (commented U k).offered) = U.conflictIn [] (U.visits.filter U.offered)) := by
  refine ⟨?_, ?_, ?_⟩
  · intro fs' gs' h h'
    obtain ⟨st, bs, files, fs1, fs2, h⟩ := ends_done h
    obtain ⟨_, _, st', hb, hs⟩ := ends_exit h'
    rcases run_sim (offers_sim U k) h.bind hb h.sort hs with ⟨e, _⟩ | ⟨x, x', _, e, _⟩
    · cases e
    · cases e
  · intro fs' gs' h h'
    obtain ⟨st, bs, files, fs1, fs2, h'⟩ := ends_done h'
    obtain ⟨_, _, st', hb, hs⟩ := ends_exit h
    rcases run_sim (offers_sim U k) hb h'.bind hs h'.sort with ⟨_, e⟩ | ⟨x, x', e, _⟩
    · cases e
    · cases e
  · rw [cmt_conflictIn, commented_offered]
    rfl

/-- C85. The functions in two sources with the same statements, one of them generated with other values of the options for comments, have the
same code: the texts differ in comments (and in lines that are empty without them) only. The names of the program have no line ends in them,
as is so for every C++ program; otherwise they may have any characters. -/
theorem C85_same_code (U : TransUnit) (k : CommentOptions) (hp : UnbrokenProgram U.E) (hf : ∀ F, Visit.fn F ∈ U.visits → UnbrokenFunc F)
    (s s' : Source) (hstmts : s.stmts = s'.stmts) (hfn : s.fn = s'.fn) (hb : ∀ v ∈ s.bound, v ∈ U.visits) :
    ∃ code code', s.text U.E = s.head ++ code ∧ s'.text (commented U k).E = s'.head ++ code' ∧ codeLines code = codeLines code' := by
  have hv : ∀ v ∈ s.bound, Same (bindingOf (withComments U.E k) v) (bindingOf U.E v) ∧ Same (prefixOf (withComments U.E k) v) (prefixOf U.E v) :=
    fun v hv => same_binding k hp fun F e => hf F (e ▸ hb v hv)
  have hbound : s'.bound = s.bound := by unfold Source.bound; rw [hstmts]
  let f : Str := s.fn ++ "(std::function< pybind11::module &(std::string const &namespace_) > &M)".toList
  refine ⟨s.bound.flatMap (prefixOf U.E) ++ (((c!"void " ++ f ++ c!"\n{") ++ ['\n']) ++ (s.stmts.flatMap (Stmt.text U.E) ++ (c!"}" ++ ['\n']))),
    s.bound.flatMap (prefixOf (withComments U.E k)) ++ (((c!"void " ++ f ++ c!"\n{") ++ ['\n']) ++
      (s.stmts.flatMap (Stmt.text (withComments U.E k)) ++ (c!"}" ++ ['\n']))), ?_, ?_, ?_⟩
  · simp only [Source.text, f, List.append_assoc, List.cons_append, List.nil_append]
  · rw [commented_E]
    simp only [Source.text, f, hbound, ← hstmts, ← hfn, List.append_assoc, List.cons_append, List.nil_append]
  refine Eq.symm (Same.code ?_)
  refine (Same.flatMap fun v h => (hv v h).2).append ?_
  have hs : Same (s.stmts.flatMap (Stmt.text (withComments U.E k))) (s.stmts.flatMap (Stmt.text U.E)) := by
    refine Same.flatMap fun t ht => ?_
    cases t with
    | binds v => exact (hv v (List.mem_filterMap.2 ⟨_, ht, rfl⟩)).1
    | calls f ns => exact Same.refl (whole_literal c!"\"));" rfl)
    | traces n id => exact Same.refl (whole_literal c!"]\" << std::endl;" rfl)
  exact (Same.line _).append (hs.append (Same.line _))

/-- C85. Two sources that bind the same declarations, one of them generated with other values of the options for comments, include the same
headers; the lines differ in notes behind ` //` only. For entries `-include` without blanks. -/
theorem C85_same_headers (U : TransUnit) (k : CommentOptions) (o o' : Opts) (fs fs' gs gs' : FS) (hw : fs.WF) (hw' : gs.WF)
    (hn : U.visits.length + 1 < 2 ^ 32) (hd : DistinctNames U o) (hd' : DistinctNames U o') (ht : o.trace = o'.trace) (hstl : o.stl = o'.stl)
    (hskip : ∀ e ∈ U.E.cfg.includesToSkip, ' ' ∉ e) (h : U.Ends o fs (.done fs')) (h' : (commented U k).Ends o' gs (.done gs')) :
    ∃ srcs srcs', Generated U o fs fs' srcs ∧ Generated (commented U k) o' gs gs' srcs' ∧
      ∀ s ∈ srcs, ∀ s' ∈ srcs', s.bound ≠ [] → (∀ v, v ∈ s.bound ↔ v ∈ s'.bound) → ∃ (lines lines' : List Str) (rest : Str),
        s.head = lines.flatMap (fun x => c!"#include " ++ x ++ c!"\n") ++ rest ∧
        s'.head = lines'.flatMap (fun x => c!"#include " ++ x ++ c!"\n") ++ rest ∧
        ∀ x, x ∈ lines.map noteless ↔ x ∈ lines'.map noteless := by
  obtain ⟨st, bs, files, fs1, fs2, h⟩ := ends_done h
  obtain ⟨st', bs', files', gs1, gs2, h'⟩ := ends_done h'
  have hs := h.sim h'
  have hn1 : bs.length + 1 < 2 ^ 32 := by have := h.length; omega
  have hn2 : bs'.length + 1 < 2 ^ 32 := by rw [← hs.length]; exact hn1
  have hcfg : (commented U k).E.cfg = U.E.cfg := by rw [commented_E]; rfl
  refine ⟨_, _, generated_of_done h hw hn hd, generated_of_done h' hw' hn (cmt_distinct k hd'), ?_⟩
  intro s hs1 s' hs2 hne hsame
  obtain ⟨F, hF, rfl⟩ := List.mem_map.1 hs1
  obtain ⟨F', hF', rfl⟩ := List.mem_map.1 hs2
  obtain ⟨lines, e, _, _, hl⟩ := C11_include_block U.E.cfg F.includes
  obtain ⟨lines', e', _, _, hl'⟩ := C11_include_block (commented U k).E.cfg F'.includes
  refine ⟨lines, lines', moduleHeader U.E.cfg o.stl, by rw [sourceOf, e], by rw [sourceOf, e', hcfg, hstl], ?_⟩
  rw [hcfg] at hl'
  simp only [bound_eq] at hne hsame
  -- the include lines of a declaration
  have hdecl : ∀ b ∈ declsOf F, b.decl = U.decl (Binder.visitOf U b) := fun b hb => (h.visitOf (h.decls_mem hn1 hF hb).1).2.1
  have hdecl' : ∀ b ∈ declsOf F', b.decl = (commented U k).decl (Binder.visitOf (commented U k) b) :=
    fun b hb => (h'.visitOf (h'.decls_mem hn2 hF' hb).1).2.1
  have hns : ∀ b ∈ declsOf F, F.ns = b.decl.ns := fun b hb => (C34_one_namespace _ o bs hn1 files h.gen F hF b hb).symm
  have hns' : ∀ b ∈ declsOf F', F'.ns = b.decl.ns := fun b hb => (C34_one_namespace _ o' bs' hn2 files' h'.gen F' hF' b hb).symm
  obtain ⟨b0, hb0⟩ := List.exists_mem_of_ne_nil (declsOf F) (fun e => hne (by rw [e]; rfl))
  obtain ⟨b0', hb0', hv0⟩ := List.mem_map.1 ((hsame _).1 (List.mem_map_of_mem hb0))
  have hN : F.ns = F'.ns := by
    rw [hns b0 hb0, hns' b0' hb0', hdecl b0 hb0, hdecl' b0' hb0', hv0, (decl_sim U k _).ns]
  have hi := gen_incl h.gen F hF b0 hb0
  have hi' := gen_incl h'.gen F' hF' b0' hb0'
  rw [hcfg, ← hN] at hi'
  have key : ∀ x, (∃ y ∈ F.includes, noteless y = x) ↔ ∃ y ∈ F'.includes, noteless y = x := by
    intro x
    have hdl : ∀ v, (∃ y ∈ ((commented U k).decl v).includes, noteless y = x) ↔ ∃ y ∈ (U.decl v).includes, noteless y = x := by
      intro v
      rw [← List.mem_map, ← List.mem_map, same_declIncludes U k v]
    constructor
    · rintro ⟨y, hy, rfl⟩
      rcases (hi y).1 hy with hy | ⟨h1, rfl⟩ | ⟨b, hb, hy⟩
      · exact ⟨y, (hi' y).2 (.inl hy), rfl⟩
      · exact ⟨_, (hi' _).2 (.inr (.inl ⟨ht ▸ h1, rfl⟩)), by rw [traceInclude_note, traceInclude_note]⟩
      · obtain ⟨b', hb', hv⟩ := List.mem_map.1 ((hsame _).1 (List.mem_map_of_mem hb))
        rw [hdecl b hb] at hy
        obtain ⟨z, hz, e⟩ := (hdl _).2 ⟨y, hy, rfl⟩
        exact ⟨z, (hi' z).2 (.inr (.inr ⟨b', hb', by rw [hdecl' b' hb', hv]; exact hz⟩)), e⟩
    · rintro ⟨y, hy, rfl⟩
      rcases (hi' y).1 hy with hy | ⟨h1, rfl⟩ | ⟨b', hb', hy⟩
      · exact ⟨y, (hi y).2 (.inl hy), rfl⟩
      · exact ⟨_, (hi _).2 (.inr (.inl ⟨ht.symm ▸ h1, rfl⟩)), by rw [traceInclude_note, traceInclude_note]⟩
      · obtain ⟨b, hb, hv⟩ := List.mem_map.1 ((hsame _).2 (List.mem_map_of_mem hb'))
        rw [hdecl' b' hb'] at hy
        obtain ⟨z, hz, e⟩ := (hdl _).1 ⟨y, hy, rfl⟩
        exact ⟨z, (hi z).2 (.inr (.inr ⟨b, hb, by rw [hdecl b hb, hv]; exact hz⟩)), e⟩
  have hkeep : ∀ x y, noteless x = noteless y → (∀ e ∈ U.E.cfg.includesToSkip, ¬ e <+: x) → ∀ e ∈ U.E.cfg.includesToSkip, ¬ e <+: y := by
    intro x y hxy hx e he hpre
    rw [← prefix_noteless (hskip e he), ← hxy, prefix_noteless (hskip e he)] at hpre
    exact hx e he hpre
  intro x
  simp only [List.mem_map]
  constructor
  · rintro ⟨y, hy, rfl⟩
    obtain ⟨h1, h2⟩ := (hl y).1 hy
    obtain ⟨z, hz, e⟩ := (key _).1 ⟨y, h1, rfl⟩
    exact ⟨z, (hl' z).2 ⟨hz, hkeep y z e.symm h2⟩, e⟩
  · rintro ⟨y, hy, rfl⟩
    obtain ⟨h1, h2⟩ := (hl' y).1 hy
    obtain ⟨z, hz, e⟩ := (key _).2 ⟨y, h1, rfl⟩
    exact ⟨z, (hl z).2 ⟨hz, hkeep y z e.symm h2⟩, e⟩

/-- Notes at the include lines and the functions, no line numbers. -/
def Ex.chatty : CommentOptions := ⟨true, true, true⟩

theorem Ex.quoted_unbroken : UnbrokenProgram quoted.E where
  types t := (quoted_plain.types t).1.oneLine.1
  simplify s h := fun hc => (C78_simplify_chars s _ hc).elim h (by decide)
  records i := by
    have := quoted_cls i
    simp only [classes, List.mem_cons, List.not_mem_nil, or_false] at this
    rcases this with h | h | h | h | h <;> rw [h] <;> exact ⟨by decide, by decide, by decide, by rintro as ⟨⟩, by rintro m ⟨⟩⟩
  enums i := by
    change UnbrokenEnum exampleEnum
    exact ⟨by decide, by decide, by decide⟩

theorem Ex.quoted_unbroken_functions (F : Func) (hF : Visit.fn F ∈ quoted.visits) : UnbrokenFunc F := by
  simp only [Ex.quoted, List.mem_cons, Visit.fn.injEq, reduceCtorEq, List.not_mem_nil, or_false, false_or] at hF
  subst hF
  exact ⟨by decide, by decide, by decide, nofun⟩

/-- The hypotheses of the theorems above are met by the runs for `Ex.quoted`; the second one writes notes, and no line numbers. -/
example : Ex.fsEmpty.WF ∧ Ex.quoted.visits.length + 1 < 2 ^ 32 ∧ DistinctNames Ex.quoted (Ex.opts 1000) ∧ UnbrokenProgram Ex.quoted.E ∧
    (∀ F, Visit.fn F ∈ Ex.quoted.visits → UnbrokenFunc F) ∧ (∀ e ∈ Ex.quoted.E.cfg.includesToSkip, ' ' ∉ e) ∧
    (∃ fs', Ex.quoted.Ends (Ex.opts 1000) Ex.fsEmpty (.done fs') ∧
      ((fs'.files c!"out/n_1.cpp").any fun t => hasInfix c!"#include <n.h>\n" t && hasInfix c!"\t// n::f(m::S) file:n.h line:3\n" t) = true) ∧
    ∃ fs', (commented Ex.quoted Ex.chatty).Ends (Ex.opts 1000) Ex.fsEmpty (.done fs') ∧
      ((fs'.files c!"out/n_1.cpp").any fun t => hasInfix c!"#include <n.h> // n::f\n" t && hasInfix c!"\t// n::f(m::S) file:n.h line:\n" t) = true :=
  ⟨Ex.fsEmpty_wf, by decide, Ex.quoted_distinct 1000, Ex.quoted_unbroken, Ex.quoted_unbroken_functions, by decide, Ex.ends_after (n := 20) (by decide +kernel),
    Ex.ends_after (n := 20) (by decide +kernel)⟩

end Binder
