import Verif.Lemmas.LexClass
import Verif.Lemmas.Run
import Verif.Props.Config

/-!
# Auxiliary lemmas: the reading of whole files
-/

namespace Binder

open Cxx Spec

section

variable {E : Env}

/-! ## Include lines -/

theorem oneLine_tables : ∀ l ∈ [includeTypeMap, includeNameMap, includeFileMap], ∀ p ∈ l, OneLine p.2 := by
  have h : [includeTypeMap, includeNameMap, includeFileMap].all (fun l => l.all fun p => !p.2.contains '\n' && !p.2.contains '\\') = true := by
    decide +kernel
  intro l hl p hp
  have := List.all_eq_true.1 (List.all_eq_true.1 h l hl) p hp
  rw [Bool.and_eq_true] at this
  simpa [OneLine] using this

theorem oneLine_includesForName (H : PlainProgram E) {name incl : Str} (hn : OneLine name) (hi : OneLine incl) :
    ∀ x ∈ includesForName E name incl, OneLine x := by
  have hann : ∀ i, OneLine i → OneLine (if E.opts.annotateIncludes then i ++ c!" // " ++ stdName E name else i) := by
    intro i hi
    split
    · exact (hi.append (by decide)).append (hn.stdName H)
    · exact hi
  intro x hx
  unfold includesForName at hx
  simp only at hx
  split at hx
  · rename_i p hp
    rw [List.mem_singleton] at hx; subst hx
    exact hann _ (oneLine_tables _ (by simp) p (List.mem_of_find?_eq_some hp))
  · split at hx
    · rename_i p hp
      rw [List.mem_singleton] at hx; subst hx
      exact hann _ (oneLine_tables _ (by simp) p (List.mem_of_find?_eq_some hp))
    · have hend : ∀ i, OneLine i → x ∈ (if i.isEmpty then [] else
          [if E.opts.annotateIncludes then i ++ c!" // " ++ stdName E name else i]) → OneLine x := by
        intro i hi hx
        split at hx
        · cases hx
        · rw [List.mem_singleton] at hx; subst hx
          exact hann _ hi
      split at hx
      · rename_i p hp
        exact hend _ (oneLine_tables _ (by simp) p (List.mem_of_find?_eq_some hp)) hx
      · exact hend _ hi hx

/-- What a step leads to. -/
def StepLines (E : Env) : Step → Prop
  | .lines is => ∀ x ∈ is, OneLine x
  | .visit (.fn F) _ => PlainFunc E F
  | .visit _ _ => True

theorem oneLine_nil : OneLine [] := ⟨by simp, by simp⟩

theorem oneLine_nameOfClass (H : PlainProgram E) (i : Nat) : OneLine (includeNameOfClass E (E.cls i)) := by
  unfold includeNameOfClass
  split
  · exact (H.records _).qname.oneLine
  · exact (H.records _).qname.oneLine

theorem fn_not_tyNodes (t : Ty) (F : Func) : Node.fn F ∉ tyNodes t := by
  fun_induction tyNodes t with
  | case1 t ih => exact ih
  | case2 t ih => exact ih
  | case3 t ih => exact ih
  | case4 t ih => exact ih
  | _ => simp

theorem stepLines_nodes (t : Ty) (level : Nat) : ∀ s ∈ (tyNodes t).map (Step.visit · level), StepLines E s := by
  intro s hs
  obtain ⟨d, hd, rfl⟩ := List.mem_map.1 hs
  cases d with
  | fn F =>
    exact absurd hd (fn_not_tyNodes t F)
  | cls i => trivial
  | enm i => trivial

theorem stepLines_arg (H : PlainProgram E) {a : TArg} (ha : PlainArg a) (level : Nat) : ∀ s ∈ argSteps E level a, StepLines E s := by
  intro s hs
  unfold argSteps at hs
  split at hs
  · exact stepLines_nodes _ _ s hs
  · rename_i key incl hk
    rw [List.mem_singleton] at hs; subst hs
    exact oneLine_includesForName H (ha.template _ _ hk).1 (ha.template _ _ hk).2
  · rename_i t key incl hk
    rw [List.mem_singleton] at hs; subst hs
    exact oneLine_includesForName H (ha.declaration _ _ _ hk).1 (ha.declaration _ _ _ hk).2
  · exact stepLines_nodes _ _ s hs
  · cases hs
  · cases hs

theorem stepLines_node (H : PlainProgram E) (d : Node) (level : Nat) (hd : StepLines E (.visit d level)) :
    ∀ s ∈ nodeSteps E d level, StepLines E s := by
  intro s hs
  cases d with
  | cls i =>
    simp only [nodeSteps, classSteps, List.mem_append, List.mem_singleton] at hs
    rcases hs with ((rfl | hs) | hs) | hs
    · exact oneLine_includesForName H (oneLine_nameOfClass H i) (H.records i).incl
    · split at hs
      · rename_i as has
        obtain ⟨a, ha, hs⟩ := List.mem_flatMap.1 hs
        exact stepLines_arg H ((H.records i).targs as has a ha) level s hs
      · cases hs
    · obtain ⟨m, hm, rfl⟩ := List.mem_map.1 hs
      unfold templateMethods at hm
      obtain ⟨x, hx, hm⟩ := List.mem_flatMap.1 hm
      have := (H.records i).members x hx
      cases x with
      | funcTemplate specs => exact this m (List.mem_filter.1 hm).1
      | _ => cases hm
    · split at hs
      · obtain ⟨m, hm, rfl⟩ := List.mem_map.1 hs
        exact plain_methods H (List.mem_filter.1 hm).1
      · cases hs
  | enm i =>
    have hn : OneLine (includeNameOfEnum (E.enumD i)) := by
      unfold includeNameOfEnum
      split
      · exact oneLine_nil
      · exact (H.enums i).qname.oneLine
    simp only [nodeSteps, enumSteps, List.mem_append, List.mem_singleton] at hs
    rcases hs with rfl | hs
    · exact oneLine_includesForName H hn (H.enums i).incl
    · split at hs
      · rename_i incl hi
        rw [List.mem_singleton] at hs; subst hs
        exact oneLine_includesForName H hn ((H.enums i).definitionIncl _ hi)
      · cases hs
  | fn F =>
    have hF : PlainFunc E F := hd
    simp only [nodeSteps, functionSteps, List.mem_append, List.mem_singleton] at hs
    rcases hs with rfl | hs
    · refine oneLine_includesForName H ?_ hF.incl
      unfold includeNameOfFunc
      split
      · exact oneLine_nameOfClass H _
      · exact hF.qname.oneLine
    · obtain ⟨t, _, hs⟩ := List.mem_flatMap.1 hs
      exact stepLines_nodes _ _ s hs

theorem runSteps_lines {visit : IncludeSet → Node → Nat → Option IncludeSet}
    (hv : ∀ s d level s', (∀ x ∈ s.includes, OneLine x) → StepLines E (.visit d level) → visit s d level = some s' → ∀ x ∈ s'.includes, OneLine x)
    {steps : List Step} (hs : ∀ x ∈ steps, StepLines E x) {s s' : IncludeSet} (h0 : ∀ x ∈ s.includes, OneLine x)
    (h : runSteps visit s steps = some s') : ∀ x ∈ s'.includes, OneLine x := by
  induction steps generalizing s with
  | nil => simp only [runSteps, Option.some.injEq] at h; subst h; exact h0
  | cons st steps ih =>
    have hst := hs st (by simp)
    cases st with
    | lines is =>
      rw [runSteps] at h
      refine ih (fun x hx => hs x (by simp [hx])) ?_ h
      intro x hx
      simp only [IncludeSet.addIncludes, List.mem_append] at hx
      exact hx.elim (h0 x) (hst x)
    | visit d level =>
      rw [runSteps] at h
      split at h
      · cases h
      · rename_i s1 h1
        exact ih (fun x hx => hs x (by simp [hx])) (hv _ _ _ _ h0 hst h1) h

theorem visitF_lines (H : PlainProgram E) (n : Nat) : ∀ s d level s', (∀ x ∈ s.includes, OneLine x) → StepLines E (.visit d level) →
    visitF (nodeSteps E) n s d level = some s' → ∀ x ∈ s'.includes, OneLine x := by
  induction n with
  | zero => intro s d level s' _ _ h; cases h
  | succ n ih =>
    intro s d level s' h0 hd h
    rw [visitF] at h
    split at h
    · simp only [Option.some.injEq] at h; subst h; exact h0
    · rename_i s1 h1
      refine runSteps_lines ih (stepLines_node H d level hd) ?_ h
      have : s1.includes = s.includes := by
        unfold IncludeSet.addDecl at h1
        split at h1
        · simp only [Option.some.injEq] at h1; subst h1; rfl
        · split at h1
          · cases h1
          · simp only [Option.some.injEq] at h1; subst h1; rfl
      rw [this]; exact h0

theorem oneLine_includesOf (H : PlainProgram E) (depth : Nat) {steps : List Step} (hs : ∀ x ∈ steps, StepLines E x) :
    ∀ x ∈ includesOf E depth steps, OneLine x := by
  unfold includesOf
  split
  · rename_i s h
    exact runSteps_lines (visitF_lines H depth) hs (by simp) h
  · simp

theorem stepLines_class (H : PlainProgram E) (n : Nat) : ∀ (l : List Func) (i : Nat), (∀ m ∈ l, PlainFunc E m) →
    ∀ s ∈ classBinderStepsF E l n i, StepLines E s := by
  induction n with
  | zero => intro l i _ s hs; cases hs
  | succ n ih =>
    intro l i hl s hs
    simp only [classBinderStepsF, List.mem_append, List.mem_singleton, List.mem_cons, List.not_mem_nil, or_false] at hs
    rcases hs with ((rfl | hs) | hs) | rfl | rfl
    · intro x hx
      obtain ⟨y, hy, rfl⟩ := List.mem_map.1 hx
      have := H.config.classIncludes _ y hy
      split
      · exact this.append (by decide)
      · exact this
    · obtain ⟨j, _, hs⟩ := List.mem_flatMap.1 hs
      exact ih [] j (by simp) s hs
    · obtain ⟨m, hm, rfl⟩ := List.mem_map.1 hs
      exact hl m hm
    · trivial
    · intro x hx
      rw [List.mem_singleton] at hx; subst hx
      decide

theorem plain_prefixIncludes (H : PlainProgram E) (i : Nat) : ∀ m ∈ (classOutput E i).prefixIncludes, PlainFunc E m := by
  intro m hm
  rw [classOutput, bindClassTextF] at hm
  simp only at hm
  split at hm
  · cases hm
  · split at hm
    · cases hm
    · simp only [List.mem_append] at hm
      rcases hm with hm | hm
      · split at hm
        · obtain ⟨o, ho, rfl⟩ := List.mem_map.1 hm
          exact plain_overrides H ho
        · cases hm
      · obtain ⟨x, hx, he⟩ := List.mem_filterMap.1 hm
        have := plain_classItems H hx
        cases x <;> simp at he
        subst he
        exact this

/-! ## The declarations of a unit -/

theorem oneLine_declIncludes {U : TransUnit} (H : PlainProgram U.E) {v : Visit} (hv : ∀ F, v = .fn F → PlainFunc U.E F) :
    ∀ x ∈ (U.decl v).includes, OneLine x := by
  cases v with
  | fn F =>
    refine oneLine_includesOf H _ ?_
    intro s hs
    unfold functionBinderSteps at hs
    rw [List.mem_singleton] at hs; subst hs
    exact hv F rfl
  | cls i => exact oneLine_includesOf H _ (stepLines_class H _ _ i (plain_prefixIncludes H i))
  | enm i =>
    refine oneLine_includesOf H _ ?_
    intro s hs
    unfold enumBinderSteps at hs
    rw [List.mem_singleton] at hs; subst hs
    trivial

theorem neutral_declCode {U : TransUnit} (H : PlainProgram U.E) {v : Visit} (hv : ∀ F, v = .fn F → PlainFunc U.E F) :
    Neutral (U.decl v).genCode ∧ Neutral (U.decl v).genPrefix := by
  cases v with
  | fn F => exact ⟨neutral_functionCode H (hv F rfl), .nil⟩
  | cls i => exact neutral_class H i
  | enm i => exact ⟨neutral_enumCode H (H.enums i), .nil⟩

theorem strSafe_declIdent {U : TransUnit} (H : PlainProgram U.E) {v : Visit} (hv : ∀ F, v = .fn F → PlainFunc U.E F) :
    StrSafe (U.decl v).ident := by
  cases v with
  | fn F => rw [TransUnit.decl, functionDecl]; dsimp only; exact strSafe_functionQualified H (hv F rfl) _
  | cls i => rw [TransUnit.decl, classDecl]; dsimp only; exact (plain_classQualified H i).strSafe
  | enm i => rw [TransUnit.decl, enumDecl]; dsimp only; exact (H.enums i).qname.strSafe

theorem plain_declNs {U : TransUnit} (H : PlainProgram U.E) {v : Visit} (hv : ∀ F, v = .fn F → PlainFunc U.E F) :
    LexPlain (U.decl v).ns := by
  cases v with
  | fn F => rw [TransUnit.decl, functionDecl]; dsimp only; exact (hv F rfl).namespace_
  | cls i => rw [TransUnit.decl, classDecl]; dsimp only; exact (H.records i).namespace_
  | enm i => rw [TransUnit.decl, enumDecl]; dsimp only; exact (H.enums i).namespace_

/-! ## The frame of a file -/

theorem neutral_include {i : Str} (h : OneLine i) : Neutral (c!"#include " ++ i ++ c!"\n") := by
  intro o r
  simp only [List.append_assoc, lexLit, h.line]

theorem neutral_includeBlock (c : Config) {includes : List Str} (h : ∀ i ∈ includes, OneLine i) : Neutral (generateIncludeDirectives c includes) := by
  obtain ⟨l, e, _, _, hm⟩ := C11_include_block c includes
  rw [e]
  exact Neutral.flatMap fun i hi => neutral_include (h i ((hm i).1 hi).1)

theorem neutral_includesCode (H : PlainProgram E) (stl : Bool) : Neutral (includesCode E.cfg stl) := by
  have h1 : Neutral (E.cfg.includesToAdd.foldl (fun r i => r ++ c!"#include " ++ i ++ c!"\n") []) := by
    have key : ∀ (l : List Str) (a : Str), (∀ i ∈ l, OneLine i) → Neutral a → Neutral (l.foldl (fun r i => r ++ c!"#include " ++ i ++ c!"\n") a) := by
      intro l
      induction l with
      | nil => intro a _ h; exact h
      | cons i l ih =>
        intro a hl ha
        refine ih _ (fun j hj => hl j (by simp [hj])) ?_
        have := ha.append (neutral_include (hl i (by simp)))
        simpa using this
    exact key _ _ H.config.includes .nil
  unfold includesCode
  simp only
  generalize E.cfg.includesToAdd.foldl (fun r i => r ++ c!"#include " ++ i ++ c!"\n") [] = a at h1
  have h2 : Neutral (if stl = true then a ++ c!"#include <pybind11/stl.h>\n" else a) := by
    split
    · exact h1.append (neutral_iff.2 (by decide))
    · exact h1
  generalize (if stl = true then a ++ c!"#include <pybind11/stl.h>\n" else a) = b at h2
  split
  · exact h2.append (neutral_iff.2 (by decide))
  · exact h2

theorem neutral_moduleHeader (H : PlainProgram E) (stl : Bool) : Neutral (moduleHeader E.cfg stl) := by
  intro o r
  have h := neutral_includesCode H stl
  unfold moduleHeader
  simp only [List.append_assoc, lexLit, H.config.pybind11.line, h _ _, H.config.holder.code]

theorem neutral_suffix : Neutral functionSuffix := by
  intro o r
  unfold functionSuffix
  simp only [lexLit]

theorem neutral_fileText (H : PlainProgram E) (o : Opts) {F : OutFile} (hi : ∀ i ∈ F.includes, OneLine i) (hp : Neutral F.pre) (hf : LexPlain F.fn)
    (hb : Neutral (codeText F.body)) : Neutral (F.text E.cfg o) := by
  intro op r
  unfold OutFile.text
  simp only [List.append_assoc, lexLit, neutral_includeBlock E.cfg hi _ _, neutral_moduleHeader H o.stl _ _, hp _ _, hf.code, neutral_suffix _ _, hb _ _]

/-! ## The root module -/

theorem neutral_decls {fns : List Str} (h : ∀ f ∈ fns, LexPlain f) : Neutral (declsText fns) := by
  refine Neutral.flatMap fun f hf => ?_
  intro o r
  simp only [List.append_assoc, lexLit, (h f hf).code, neutral_suffix _ _]

theorem neutral_calls {fns : List Str} (h : ∀ f ∈ fns, LexPlain f) : Neutral (callsText fns) := by
  refine Neutral.flatMap fun f hf => ?_
  intro o r
  simp only [List.append_assoc, lexLit, (h f hf).code]

theorem neutral_rootHead (H : PlainProgram E) : Neutral (rootHead E.cfg) := by
  intro o r
  unfold rootHead
  simp only [List.append_assoc, lexLit, H.config.pybind11.line]

theorem lex_rootMiddle {o : Opts} (hr : LexPlain o.root) {ns : List Str} (hn : ∀ n ∈ ns, StrSafe n) (op r : Str) :
    lex .code op (rootMiddle o ns ++ r) = lex .code ('}' :: op) r := by
  have h1 : Neutral ((subModules ns).flatMap (fun p => c!"\t\t{\"" ++ p.1 ++ c!"\", \"" ++ p.2 ++ c!"\"},\n")) := by
    refine Neutral.flatMap fun p hp => ?_
    unfold subModules at hp
    obtain ⟨n, hm, rfl⟩ := List.mem_map.1 hp
    have hs := hn n (List.mem_filter.1 hm).1
    have hb : StrSafe (baseNamespace n) := by
      unfold baseNamespace
      split
      · simp [StrSafe]
      · exact hs.subset fun c hc => List.mem_of_mem_drop (List.mem_of_mem_take hc)
    have hl : StrSafe (lastNamespace n) := by
      unfold lastNamespace
      split
      · exact hs
      · exact hs.subset fun c hc => List.mem_of_mem_drop (List.mem_of_mem_take hc)
    intro o r
    simp only [List.append_assoc, lexLit, hb.str, hl.str]
  unfold rootMiddle
  generalize (subModules ns).flatMap _ = sm at h1 ⊢
  simp only [List.append_assoc, lexLit, hr.code, hr.strSafe.str, h1 _ _]

theorem neutral_rootText (H : PlainProgram E) {o : Opts} (hr : LexPlain o.root) {ns fns : List Str} (hn : ∀ n ∈ ns, StrSafe n) (hf : ∀ f ∈ fns, LexPlain f) :
    Neutral (rootText E.cfg o ns fns) := by
  intro op r
  unfold rootText
  simp only [List.append_assoc, lexLit, neutral_rootHead H _ _, neutral_decls hf _ _, lex_rootMiddle hr hn, neutral_calls hf _ _]

theorem neutral_lineComment {s : Str} (h : OneLine s) : Neutral (c!"// " ++ s ++ c!"\n") := by
  intro o r
  simp only [List.append_assoc, lexLit, h.line]

theorem neutral_rootFile (H : PlainProgram E) {o : Opts} (hr : LexPlain o.root) (hp : OneLine o.pre) {ns : List Str} {files : List OutFile}
    (hn : ∀ n ∈ ns, StrSafe n) (hf : ∀ F ∈ files, LexPlain F.fn ∧ OneLine F.name ∧ Neutral (F.text E.cfg o)) :
    Neutral (rootFileText E.cfg o ns files) := by
  have hroot := neutral_rootText H hr hn (fns := functionNames files) (by
    intro f hf'
    obtain ⟨F, hF, rfl⟩ := List.mem_map.1 hf'
    exact (hf F hF).1)
  unfold rootFileText
  split
  · have h1 : Neutral (files.flatMap (fun f => c!"// File: " ++ f.name ++ c!"\n" ++ f.text E.cfg o ++ c!"\n\n")) := by
      refine Neutral.flatMap fun F hF => ?_
      obtain ⟨_, hn, ht⟩ := hf F hF
      intro op r
      simp only [List.append_assoc, lexLit, hn.line, ht _ _]
    have h2 : Neutral ((sourcesOf o files).flatMap (fun s => c!"// " ++ s ++ c!"\n")) := by
      refine Neutral.flatMap fun s hs => neutral_lineComment ?_
      unfold sourcesOf at hs
      rcases List.mem_cons.1 hs with rfl | hs
      · exact hr.oneLine.append (by decide)
      · obtain ⟨F, hF, rfl⟩ := List.mem_map.1 hs
        exact (hf F hF).2.1
    have h3 : OneLine (modulesText ns) := by
      unfold modulesText
      have h4 : OneLine (ns.flatMap fun n => n ++ c!" ") := by
        refine oneLine_of_strSafe fun c hc => ?_
        obtain ⟨n, hm, hc⟩ := List.mem_flatMap.1 hc
        exact (hn n hm).append (by unfold StrSafe; decide) c hc
      exact ⟨fun hc => (mem_replaceAll hc).elim h4.1 (by decide), fun hc => (mem_replaceAll hc).elim h4.2 (by decide)⟩
    intro op r
    generalize files.flatMap _ = t1 at h1 ⊢
    generalize (sourcesOf o files).flatMap _ = t2 at h2 ⊢
    simp only [List.append_assoc, lexLit, h1 _ _, hroot _ _, hp.line, hr.oneLine.line, h2 _ _, h3.line]
  · exact hroot

/-! ## A run -/

theorem fill_includes (o : Opts) (ns : Str) (skip : Bool) (P : Str → Prop) (ht : P (traceInclude o)) (l : List SortItem) (s : Fill)
    (hl : ∀ b ∈ l, ∀ y ∈ b.decl.includes, P y) (hs : ∀ y ∈ s.includes, P y) : ∀ y ∈ (fill o ns skip l s).includes, P y := by
  induction l generalizing s with
  | nil => exact hs
  | cons b l ih =>
    rw [fill]
    split
    · refine ih _ (fun x hx => hl x (by simp [hx])) ?_
      rw [fillBody_includes]
      intro y hy
      split at hy
      · exact hs y hy
      · simp only [List.mem_append] at hy
        rcases hy with (hy | hy) | hy
        · exact hs y hy
        · split at hy
          · rw [List.mem_singleton] at hy; subst hy; exact ht
          · cases hy
        · split at hy
          · exact hl b (by simp) y hy
          · cases hy
    · exact hs

theorem gen_includes {c : Config} {o : Opts} {bs : List SortItem} {files : List OutFile} (hr : Loop.Returns (genStep c o bs) GenState.init files)
    (P : Str → Prop) (ht : P (traceInclude o)) (hb : ∀ b ∈ bs, ∀ y ∈ b.decl.includes, P y) (hc : ∀ ns, ∀ y ∈ c.namespaceIncludes ns, P y) :
    ∀ F ∈ files, ∀ y ∈ F.includes, P y := by
  refine Loop.returns_induct (fun s : GenState => ∀ F ∈ s.files, ∀ y ∈ F.includes, P y) (fun files => ∀ F ∈ files, ∀ y ∈ F.includes, P y)
    ?_ ?_ (by simp [GenState.init]) hr
  · intro s s' hP hs
    unfold genStep at hs
    split at hs
    · cases hs
    · split at hs
      · cases hs; exact hP
      · simp only [Sum.inl.injEq] at hs
        subst hs
        intro F hF y hy
        dsimp only at hF
        rcases List.mem_append.1 hF with hF | hF
        · exact hP F hF y hy
        · rw [List.mem_singleton] at hF; subst hF
          exact fill_includes o _ _ P ht _ _ (fun b hb' => hb b (List.mem_of_mem_drop hb')) (hc _) y hy
  · intro s r hP hs
    unfold genStep at hs
    split at hs
    · cases hs; exact hP
    · split at hs <;> cases hs

end

section

variable {U : TransUnit} {o : Opts} {fs fs' fs1 fs2 : FS} {st : BindState} {bs : List SortItem} {files : List OutFile}

theorem RunDone.plainVisit (h : RunDone U o fs fs' st bs files fs1 fs2) (hf : ∀ F, Visit.fn F ∈ U.visits → PlainFunc U.E F) {b : SortItem} (hb : b ∈ bs) :
    ∃ v, b.decl = U.decl v ∧ ∀ F, v = .fn F → PlainFunc U.E F := by
  obtain ⟨v, hv, e, _⟩ := h.item hb
  exact ⟨v, e, fun F hF => hf F (hF ▸ (considered_offered hv).1)⟩

theorem safe_plain {x : Char} (h : safeChar x = true) (hs : x ≠ '/') : x ∉ special ∧ isBr x = false := by
  unfold safeChar isAlnum at h
  constructor
  · intro hx
    simp only [special, List.mem_cons, List.not_mem_nil, or_false] at hx
    rcases hx with rfl | rfl | rfl | rfl | rfl | rfl <;> first | exact hs rfl | (revert h; decide)
  · cases hb : isBr x with
    | false => rfl
    | true =>
      simp only [isBr, Bool.or_eq_true, beq_iff_eq] at hb
      rcases hb with ((((rfl | rfl) | rfl) | rfl) | rfl) | rfl <;> (revert h; decide)

theorem RunDone.plainFile (h : RunDone U o fs fs' st bs files fs1 fs2) (hn : bs.length + 1 < 2 ^ 32) (hr : LexPlain o.root) {F : OutFile} (hF : F ∈ files) :
    LexPlain F.fn ∧ OneLine F.name := by
  obtain ⟨np, n, b, hb, hk, h1, h2⟩ := gen_name hn h.gen hF
  rw [h1, h2]
  unfold functionName
  cases hfl : o.flat with
  | true =>
    have hst : LexPlain (fileStem o np n) := by
      unfold fileStem
      rw [hk, fileKey, hfl, if_pos rfl, if_pos rfl]
      exact Spec.LexPlain.append (Spec.LexPlain.append hr (by decide)) (plain_natStr n)
    exact ⟨Spec.LexPlain.append (by decide) (hst.replaceAll (by simp) (by decide) (by decide) (by unfold noSpecial; decide)),
      hst.oneLine.append (by decide)⟩
  | false =>
    have hnp : ∀ x ∈ np, safeChar x = true := by
      intro x hx
      rw [hk, fileKey, hfl] at hx
      exact fileNamePrefix_safe hx
    have hst := fileStem_safe (o := o) (n := n) hnp
    refine ⟨Spec.LexPlain.append (by decide) (plain_of_noBr fun c hc => ?_), ?_, ?_⟩
    · rw [replaceAll_single] at hc
      obtain ⟨d, hd, hc⟩ := List.mem_flatMap.1 hc
      split at hc
      · rw [List.mem_singleton] at hc; subst hc; decide
      · rename_i hne
        rw [List.mem_singleton] at hc; subst hc
        exact safe_plain (hst _ hd) hne
    · intro hc
      rcases List.mem_append.1 hc with hc | hc
      · exact absurd (hst _ hc) (by decide)
      · exact absurd hc (by decide)
    · intro hc
      rcases List.mem_append.1 hc with hc | hc
      · exact absurd (hst _ hc) (by decide)
      · exact absurd hc (by decide)

theorem mem_ancestors {n : Nat} {ns x : Str} (h : x ∈ ancestors n ns) : ∀ c ∈ x, c ∈ ns := by
  induction n generalizing ns with
  | zero => cases h
  | succ n ih =>
    rw [ancestors] at h
    split at h
    · rcases List.mem_cons.1 h with rfl | h
      · exact fun c hc => hc
      · intro c hc
        have := ih h c hc
        unfold baseNamespace at this
        split at this
        · cases this
        · exact List.mem_of_mem_drop (List.mem_of_mem_take this)
    · cases h

theorem RunDone.namespaces (h : RunDone U o fs fs' st bs files fs1 fs2) (H : PlainProgram U.E) (hf : ∀ F, Visit.fn F ∈ U.visits → PlainFunc U.E F) :
    ∀ n ∈ allNestedNamespaces bs, StrSafe n := by
  intro n hn
  unfold allNestedNamespaces at hn
  rw [mem_setOf] at hn
  obtain ⟨b, hb, hm⟩ := List.mem_flatMap.1 hn
  obtain ⟨v, e, hv⟩ := h.plainVisit hf hb
  split at hm
  · refine StrSafe.subset ?_ (mem_ancestors hm)
    rw [e]
    exact (plain_declNs H hv).strSafe
  · cases hm

theorem RunDone.neutralBody (h : RunDone U o fs fs' st bs files fs1 fs2) (hn : bs.length + 1 < 2 ^ 32) (H : PlainProgram U.E)
    (hf : ∀ F, Visit.fn F ∈ U.visits → PlainFunc U.E F) {F : OutFile} (hF : F ∈ files) : Neutral (codeText F.body) ∧ Neutral F.pre := by
  have hcode : ∀ b ∈ bs, Neutral b.code ∧ Neutral b.pre := by
    intro b hb
    obtain ⟨v, hv, e, h1, h2⟩ := h.item hb
    have hv' : ∀ F, v = .fn F → PlainFunc U.E F := fun F hF => hf F (hF ▸ (considered_offered hv).1)
    have hd := neutral_declCode H hv'
    constructor
    · by_cases hr : Reached U v
      · rw [h1 hr, ← decl_genCode]; exact hd.1
      · rw [h2 hr]; exact .nil
    · unfold SortItem.pre
      split
      · rw [e]; exact hd.2
      · exact .nil
  refine gen_each hn h.gen (fun F => Neutral (codeText F.body) ∧ Neutral F.pre) ?_ F hF
  intro s s' b F k hb _ hw
  have hbm := List.mem_of_getElem? hb
  have hsub : ∀ x ∈ (bs.drop s.i).take k, x ∈ bs := fun x hx => List.mem_of_mem_drop (List.mem_of_mem_take hx)
  have hns : StrSafe b.decl.ns := by
    obtain ⟨v, e, hv⟩ := h.plainVisit hf hbm
    rw [e]; exact (plain_declNs H hv).strSafe
  have hemit : ∀ (l : List SortItem) (t : Nat), (∀ x ∈ l, x ∈ bs) → Neutral (codeText (emit o t l)) := by
    intro l
    induction l with
    | nil => intro t _; exact .nil
    | cons x l ih =>
      intro t hl
      rw [emit, codeText, List.flatMap_append]
      refine Neutral.append ?_ (ih _ fun y hy => hl y (by simp [hy]))
      unfold entry
      rw [List.flatMap_append]
      refine Neutral.append ?_ ?_
      · split
        · obtain ⟨v, e, hv⟩ := h.plainVisit hf (hl x (by simp))
          have hid : StrSafe x.decl.ident := by rw [e]; exact strSafe_declIdent H hv
          intro op r
          simp only [List.flatMap_cons, List.flatMap_nil, List.append_nil, Piece.text, List.append_assoc, lexLit, (plain_natStr t).strSafe.str, hid.str]
        · exact .nil
      · split
        · simp only [List.flatMap_cons, List.flatMap_nil, List.append_nil, Piece.text]
          exact (hcode x (hl x (by simp))).1
        · exact .nil
  have hcall : ∀ f, LexPlain f → Neutral (c!"\n\t" ++ f ++ c!"(M(\"" ++ b.decl.ns ++ c!"\"));\n") := by
    intro f hf op r
    simp only [List.append_assoc, lexLit, hf.code, hns.str]
  have hstart : ∀ first, Neutral (codeText (startBody U.E.cfg b.decl.ns first)) := by
    intro first
    have h0 : Neutral (codeText []) := .nil
    have h1 : ∀ f, U.E.cfg.binderForNamespaces b.decl.ns = some f → Neutral (codeText [Piece.nsCall f b.decl.ns]) := by
      intro f hf
      rw [codeText, List.flatMap_singleton]
      exact hcall f (H.config.namespaceBinders _ _ hf)
    have h2 : ∀ f, U.E.cfg.addOnBinderForNamespaces b.decl.ns = some f → Neutral (codeText [Piece.addOn f b.decl.ns]) := by
      intro f hf
      rw [codeText, List.flatMap_singleton]
      exact hcall f (H.config.namespaceAddOns _ _ hf)
    cases first with
    | false => rw [startBody_not_first]; exact h0
    | true =>
      cases hb1 : U.E.cfg.binderForNamespaces b.decl.ns with
      | some f => rw [startBody_first_ns hb1]; exact h1 f hb1
      | none =>
        cases hb2 : U.E.cfg.addOnBinderForNamespaces b.decl.ns with
        | some f => rw [startBody_first_addOn hb1 hb2]; exact h2 f hb2
        | none => rw [startBody_none hb1 hb2]; exact h0
  constructor
  · rw [hw.body, codeText, List.flatMap_append]
    refine Neutral.append (hstart _) ?_
    split
    · exact .nil
    · exact hemit _ _ hsub
  · rw [hw.pre]
    split
    · exact .nil
    · exact Neutral.flatMap fun x hx => (hcode x (hsub x hx)).2

theorem RunDone.neutralFile (h : RunDone U o fs fs' st bs files fs1 fs2) (hn : bs.length + 1 < 2 ^ 32) (H : PlainProgram U.E)
    (hf : ∀ F, Visit.fn F ∈ U.visits → PlainFunc U.E F) (hr : LexPlain o.root) {F : OutFile} (hF : F ∈ files) : Neutral (F.text U.E.cfg o) := by
  have h1 := h.neutralBody hn H hf hF
  refine neutral_fileText H o ?_ h1.2 (h.plainFile hn hr hF).1 h1.1
  refine gen_includes h.gen OneLine ?_ ?_ H.config.namespaceIncludes F hF
  · unfold traceInclude; split <;> decide
  · intro b hb
    obtain ⟨v, e, hv⟩ := h.plainVisit hf hb
    rw [e]
    exact oneLine_declIncludes H hv

theorem RunDone.rootFile (h : RunDone U o fs fs' st bs files fs1 fs2) (hw : fs.WF) (hn : U.visits.length + 1 < 2 ^ 32) (hd : DistinctNames U o) :
    fs'.files (rootPath o) = some (rootFileText U.E.cfg o (allNestedNamespaces bs) files) := by
  have hn' : bs.length + 1 < 2 ^ 32 := by have := h.length; omega
  have hopen := writeFile_some h.opened
  have hupd := h.update
  cases hs : o.single with
  | true =>
    unfold sourceFiles at hupd
    rw [if_pos hs] at hupd
    cases hupd
    rw [h.finish, finishRun, if_pos hs]
    simp only [FS.overwrite, if_true, hopen, Option.getD_some, List.drop_nil, List.append_nil]
  | false =>
    have hnd := sourcesOf_distinct h hn' hd hs
    unfold sourcesOf at hnd
    rw [List.nodup_cons] at hnd
    have hsf : sourceFiles U.E.cfg o files = files.map fun f => (f.name, f.text U.E.cfg o) := by
      unfold sourceFiles; rw [hs]; rfl
    rw [hsf] at hupd
    obtain ⟨_, _, hframe, _⟩ := updateAll_some (writeFile_wf hw h.opened) (by
      intro p hp
      obtain ⟨F, _, rfl⟩ := List.mem_map.1 hp
      exact C20_texts_not_empty _ _ _) (by rw [List.map_map]; exact hnd.2) hupd
    have hroot2 : fs2.files (rootPath o) = some [] := by
      rw [hframe, hopen]
      · simp
      · intro p hp e
        obtain ⟨F, hF, rfl⟩ := List.mem_map.1 hp
        refine hnd.1 (List.mem_map.2 ⟨F, hF, ?_⟩)
        exact (List.append_cancel_left e).symm
    have e : rootPath o = (o.pre ++ c!"/" ++ o.root) ++ c!".cpp" := by unfold rootPath; simp
    rw [h.finish, finishRun, hs]
    simp only [Bool.false_eq_true, if_false]
    rw [tryWrite_ne, tryWrite_ne]
    · simp only [FS.overwrite, if_true, hroot2, Option.getD_some, List.drop_nil, List.append_nil]
    · rw [e]; exact cpp_ne (by decide) (by decide)
    · rw [e]; exact cpp_ne (by decide) (by decide)

end

end Binder
