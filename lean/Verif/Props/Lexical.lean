import Verif.Lemmas.LexRun
import Verif.Lemmas.LexSimplify
import Verif.Lemmas.RunExample

/-!
# C78: the generated files can be taken apart by a compiler
-/

namespace Binder

open Cxx Spec

/-- The function the program uses to simplify names writes none of the special characters, as `PlainProgram` asks. -/
theorem C78_simplify_chars (s : Str) : ∀ c ∈ simplifyStd s, c ∈ s ∨ c ∉ special :=
  fun _ h => (mem_simplifyStd h).imp_right fun h => (calm_iff.1 h).1

/-- Names without special characters and brackets are plain after `standard_name`, too. -/
theorem C78_plain_names (E : Env) (hs : E.simplify = simplifyStd) (s : Str) (h : ∀ c ∈ s, c ∉ special ∧ c ∉ c!"()[]{}") :
    LexPlain s ∧ LexPlain (stdName E s) := by
  have h : Calm s := fun c hc => calm_iff.2 ⟨(h c hc).1, by simpa [isBr, and_assoc] using (h c hc).2⟩
  exact ⟨h.plain, h.stdName hs⟩

/-- C78, for programs whose names, types and template arguments have no literals in them. Every file that a run writes, except for the two
lists, is lexically well-formed: string literals and comments end, brackets match. Comments of the program are not restricted: quotes,
backslashes, ends of lines in them do no harm. Missing: template arguments with quotes (see `C78_char_argument_false`), names
that are broken when they are simplified (see `C78_simplified_false`), and texts of the configuration file with such characters. -/
theorem C78_well_formed_partial (U : TransUnit) (o : Opts) (fs fs' : FS) (hw : fs.WF) (hn : U.visits.length + 1 < 2 ^ 32) (hd : DistinctNames U o)
    (hp : PlainProgram U.E) (hf : ∀ F, Visit.fn F ∈ U.visits → PlainFunc U.E F) (hroot : LexPlain o.root) (hpre : OneLine o.pre)
    (h : U.Ends o fs (.done fs')) (x text : Str) (hx : fs'.files x = some text) :
    fs.files x = some text ∨ x = o.pre ++ c!"/" ++ o.root ++ c!".sources" ∨ x = o.pre ++ c!"/" ++ o.root ++ c!".modules" ∨
    LexWellFormed text := by
  obtain ⟨st, bs, files, fs1, fs2, h⟩ := ends_done h
  have hn' : bs.length + 1 < 2 ^ 32 := by have := h.length; omega
  have hfile : ∀ F ∈ files, LexPlain F.fn ∧ OneLine F.name ∧ Neutral (F.text U.E.cfg o) := fun F hF =>
    ⟨(h.plainFile hn' hroot hF).1, (h.plainFile hn' hroot hF).2, h.neutralFile hn' hp hf hroot hF⟩
  have hrootText := neutral_rootFile hp hroot hpre (h.namespaces hp hf) hfile
  have hwr := h.written hw hn hd
  unfold Written at hwr
  split at hwr
  · obtain ⟨_, _, _, _, hframe⟩ := hwr
    by_cases e : x = rootPath o
    · refine .inr (.inr (.inr ?_))
      rw [e, h.rootFile hw hn hd, Option.some.injEq] at hx
      rw [← hx]
      exact neutral_iff.1 hrootText
    · exact .inl (by rw [← hframe x e]; exact hx)
  · obtain ⟨hsrc, _, hframe⟩ := hwr
    by_cases e1 : x = o.pre ++ c!"/" ++ o.root ++ c!".sources"
    · exact .inr (.inl e1)
    by_cases e2 : x = o.pre ++ c!"/" ++ o.root ++ c!".modules"
    · exact .inr (.inr (.inl e2))
    refine .imp id (fun h => .inr (.inr h)) ?_
    by_cases e : ∃ F ∈ files, x = o.pre ++ c!"/" ++ F.name
    · obtain ⟨F, hF, e⟩ := e
      right
      have := hsrc _ (List.mem_map_of_mem hF)
      rw [e] at hx
      rw [show (sourceOf U o F).name = F.name from rfl, hx, h.text hn' hF] at this
      cases this
      exact neutral_iff.1 (hfile F hF).2.2
    · by_cases e3 : x = rootPath o
      · right
        rw [e3, h.rootFile hw hn hd, Option.some.injEq] at hx
        rw [← hx]
        exact neutral_iff.1 hrootText
      · left
        rw [← hframe x e3 e1 e2]
        · exact hx
        · intro s hs'
          obtain ⟨F, hF, rfl⟩ := List.mem_map.1 hs'
          exact fun he => e ⟨F, hF, he⟩

namespace Ex

/-- The program of `Ex.unit`; the comment of the function has a quote, a backslash and two lines. -/
def quoted : TransUnit :=
  { unit with
    env := { unit.env with simplify := simplifyStd }
    visits := [.cls 0, .cls 1, .cls 2, .cls 3, .fn { fun_f with comment := c!"Says \"no\" \\\nand } goes." }] }

theorem calm_tyName (t : Ty) : Calm (exampleTyName t) := by
  fun_induction exampleTyName t with
  | case4 t ih => exact ih.append (by unfold Calm; decide)
  | case5 t ih => exact ih.append (by unfold Calm; decide)
  | case6 t ih => exact Calm.append (by unfold Calm; decide) ih
  | _ => unfold Calm; decide

theorem quoted_cls (i : Nat) : quoted.E.cls i ∈ exampleRecord :: classes := by
  show classes.getD i exampleRecord ∈ _
  rcases i with _ | _ | _ | _ | i <;> simp [classes]

theorem plain_quoted {C : Record} (h : C ∈ exampleRecord :: classes) : PlainRecord quoted.E C := by
  simp only [classes, List.mem_cons, List.not_mem_nil, or_false] at h
  rcases h with rfl | rfl | rfl | rfl | rfl <;>
    exact ⟨by decide, by decide, by decide, by decide, by decide, by decide, by decide, by rintro as ⟨⟩, by rintro m ⟨⟩⟩

theorem quoted_plain : PlainProgram quoted.E where
  types := by
    intro t
    have h : Calm (Ex.className t) := by
      unfold Ex.className
      split
      · rename_i i
        have := quoted_cls i
        simp only [classes, List.mem_cons, List.not_mem_nil, or_false] at this
        show Calm (quoted.E.cls i).qname
        rcases this with h | h | h | h | h <;> rw [h] <;> unfold Calm <;> decide
      · exact calm_tyName t
    exact ⟨h.plain, h.stdName rfl⟩
  simplifyChars := C78_simplify_chars
  records := fun i => plain_quoted (quoted_cls i)
  enums := by
    intro i
    change PlainEnum quoted.E exampleEnum
    exact ⟨by decide, by decide, by decide, by decide, nofun, by decide, by decide⟩
  insertions := by
    intro F hF
    rw [show quoted.E.insertions = [] by decide +kernel] at hF
    cases hF
  config := by
    refine ⟨by decide, by decide, by decide, by decide, ?_, ?_, ?_, ?_, ?_, by decide, by decide, ?_, ?_⟩
    · intro s; exact plain_nil
    all_goals first | (intro s b h; cases h) | (intro s i h; cases h)

theorem quoted_distinct (n : Nat) : DistinctNames quoted (opts n) := by
  refine .inr (.inr ?_)
  have key : ∀ v ∈ quoted.visits, fileNamePrefix (quoted.decl v).incl (namespaceOf quoted.E v) = c!"m" ∨
      fileNamePrefix (quoted.decl v).incl (namespaceOf quoted.E v) = c!"n" := by
    intro v hv
    simp only [quoted, List.mem_cons, List.not_mem_nil, or_false] at hv
    rcases hv with rfl | rfl | rfl | rfl | rfl
    · exact .inr (by decide +kernel)
    · exact .inr (by decide +kernel)
    · exact .inl (by decide +kernel)
    · exact .inl (by decide +kernel)
    · exact .inr (by decide +kernel)
  have rep : replaceAll c!"m" c!"/" c!"_" = c!"m" ∧ replaceAll c!"n" c!"/" c!"_" = c!"n" := by decide
  refine ⟨?_, ?_, ?_⟩
  · intro v hv k h
    simp only at h
    rcases key v hv with e | e <;> rw [e] at h <;> by_cases hk : k = 0 <;> simp [hk, Ex.opts] at h
  · intro v hv w hw k _ h
    simp only at h
    rcases key v hv with e | e <;> rcases key w hw with e' | e' <;> rw [e, e'] at h <;> simp [rep] at h
  · intro v hv w hw h
    simp only at h ⊢
    rcases key v hv with e | e <;> rcases key w hw with e' | e' <;> rw [e, e'] at h ⊢ <;> simp [rep] at h

/-- `template<char C> struct A {}; template struct A<'"'>;`, with the template argument as clang 13 and later print it. -/
def charUnit : TransUnit :=
  { env := { exampleEnv with
      cls := fun _ => { exampleRecord with targs := some [⟨c!"'\"'", .integral (.basic 0)⟩] }, cfg := { namespacesToBind := [c!""] } }
    visits := [.cls 0], inSystem := fun _ => false, depth := 20 }

/-- `std::function<int (A<B<C, std::allocator<std::function<int (A<B<C>>)>>>>)>`: a function whose parameter has a template argument that
mentions another function. -/
def trickyArg : Str := c!"std::function<int (A<B<C, std::allocator<std::function<int (A<B<C> >)> > > >)>"

/-- `std::list<T>`, where `T` is `Ex.trickyArg`. -/
def tricky : TransUnit :=
  { env := withClasses { exampleEnv with simplify := simplifyStd, cfg := { namespacesToBind := [c!"std"] }, argRank := fun i => 1 - i }
      [{ exampleIn c!"std" c!"list" none with
           incl := c!"<list>"
           targs := some [⟨trickyArg, .type (.record 1)⟩, ⟨c!"std::allocator<" ++ trickyArg ++ c!" >", .type (.record 2)⟩] },
       exampleIn c!"std" c!"function" none, exampleIn c!"std" c!"allocator" none]
    visits := [.cls 0], inSystem := fun _ => false, depth := 20 }

end Ex

/-- The hypotheses of `C78_well_formed_partial` are met by the run for `Ex.quoted`, which writes the comment into the file `n_1.cpp`. -/
example : Ex.fsEmpty.WF ∧ Ex.quoted.visits.length + 1 < 2 ^ 32 ∧ DistinctNames Ex.quoted (Ex.opts 1000) ∧ PlainProgram Ex.quoted.E ∧
    (∀ F, Visit.fn F ∈ Ex.quoted.visits → PlainFunc Ex.quoted.E F) ∧ LexPlain (Ex.opts 1000).root ∧ OneLine (Ex.opts 1000).pre ∧
    ∃ fs', Ex.quoted.Ends (Ex.opts 1000) Ex.fsEmpty (.done fs') ∧
      ((fs'.files c!"out/n_1.cpp").any (hasInfix c!"Says \\\"no\\\" \\\\\\nand } goes.\\n\\nC++: n::f(m::S) --> int\"")) = true := by
  refine ⟨Ex.fsEmpty_wf, by decide, ?_, Ex.quoted_plain, ?_, by decide, by decide, Ex.ends_after (n := 20) (by decide +kernel)⟩
  · exact Ex.quoted_distinct 1000
  · intro F hF
    simp only [Ex.quoted, List.mem_cons, Visit.fn.injEq, reduceCtorEq, List.not_mem_nil, or_false, false_or] at hF
    subst hF
    refine ⟨⟨c!"f", [], rfl, by decide, .inl rfl⟩, ⟨c!"n::f", [], rfl, by decide, .inl rfl⟩,
      ⟨c!"n::f", [], by decide, by decide, .inl rfl⟩, ?_, by decide, by decide, by decide, by decide, nofun⟩
    intro i
    have := Ex.quoted_cls i
    simp only [Ex.classes, List.mem_cons, List.not_mem_nil, or_false] at this
    rcases this with h | h | h | h | h <;> rw [h] <;> exact ⟨_, [], (List.append_nil _).symm, by decide, .inl rfl⟩

/-- C78 fails without the restriction: for the class `A<'"'>`, whose template argument has a quote, the generated file does not consist of
complete literals. -/
theorem C78_char_argument_false : ∃ (U : TransUnit) (o : Opts) (fs fs' : FS) (text : Str), fs.WF ∧ U.visits.length + 1 < 2 ^ 32 ∧
    U.Ends o fs (.done fs') ∧ fs.files c!"out/a.cpp" = none ∧ fs'.files c!"out/a.cpp" = some text ∧ ¬ LexWellFormed text := by
  obtain ⟨fs', h1, h2⟩ := Ex.ends_after (U := Ex.charUnit) (n := 20) (o := Ex.opts 1000) (fs := Ex.fsEmpty)
    (P := fun fs' => (fs'.files c!"out/a.cpp").any fun t => !decide (LexWellFormed t)) (by decide +kernel)
  cases ht : fs'.files c!"out/a.cpp" with
  | none => rw [ht] at h2; cases h2
  | some t =>
    rw [ht] at h2
    exact ⟨_, _, _, fs', t, Ex.fsEmpty_wf, by decide, h1, rfl, ht, by simpa using h2⟩

/-- C78 fails, too, when the simplification of a name of the standard library removes parts of its template arguments: for a `std::list` all
names and template arguments are plain, but the generated file has unbalanced parentheses. -/
theorem C78_simplified_false : ∃ (U : TransUnit) (o : Opts) (fs fs' : FS) (text : Str), fs.WF ∧ U.visits.length + 1 < 2 ^ 32 ∧
    U.E.simplify = simplifyStd ∧
    (∀ i, LexPlain (U.E.cls i).name ∧ LexPlain (U.E.cls i).qname ∧ ∀ as, (U.E.cls i).targs = some as → ∀ a ∈ as, LexPlain a.text) ∧
    U.Ends o fs (.done fs') ∧ fs.files c!"out/std/list.cpp" = none ∧ fs'.files c!"out/std/list.cpp" = some text ∧
    c!"std::list<std::function<int (A<B<C>)> > > >)>>" <:+: text ∧ ¬ LexWellFormed text := by
  obtain ⟨fs', h1, h2⟩ := Ex.ends_after (U := Ex.tricky) (n := 20) (o := Ex.opts 1000) (fs := Ex.fsEmpty)
    (P := fun fs' => (fs'.files c!"out/std/list.cpp").any fun t =>
      decide (c!"std::list<std::function<int (A<B<C>)> > > >)>>" <:+: t) && !decide (LexWellFormed t)) (by decide +kernel)
  cases ht : fs'.files c!"out/std/list.cpp" with
  | none => rw [ht] at h2; cases h2
  | some t =>
    rw [ht] at h2
    simp only [Option.any_some, Bool.and_eq_true, decide_eq_true_eq, Bool.not_eq_true', decide_eq_false_iff_not] at h2
    refine ⟨_, _, _, fs', t, Ex.fsEmpty_wf, by decide, rfl, ?_, h1, rfl, ht, h2⟩
    rintro (_ | _ | _ | i)
    · exact ⟨by decide, by decide, by rintro as ⟨⟩; decide +kernel⟩
    · exact ⟨by decide, by decide, by rintro as ⟨⟩⟩
    · exact ⟨by decide, by decide, by rintro as ⟨⟩⟩
    · show LexPlain exampleRecord.name ∧ LexPlain exampleRecord.qname ∧ ∀ as, exampleRecord.targs = some as → _
      exact ⟨by decide, by decide, by rintro as ⟨⟩⟩

end Binder
