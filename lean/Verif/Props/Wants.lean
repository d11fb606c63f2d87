import Verif.Props.ConvertsOnce
import Verif.Spec.Wants

/-!
# C76: no other headers
-/

namespace Binder

open Cxx Spec

/-! ## One file -/

theorem fillBody_body_keep {o : Opts} {skip : Bool} {b : SortItem} {s : Fill} {p : Piece} (h : p ∈ s.body) : p ∈ (fillBody o skip b s).body := by
  rw [fillBody_body]
  split
  · exact h
  · exact List.mem_append_left _ h

theorem fill_body_keep {o : Opts} {ns : Str} {skip : Bool} {l : List SortItem} {s : Fill} {p : Piece} (h : p ∈ s.body) : p ∈ (fill o ns skip l s).body := by
  induction l generalizing s with
  | nil => exact h
  | cons b l ih =>
    rw [fill]
    split
    · exact ih (fillBody_body_keep h)
    · exact h

/-- An include line of the inner loop was there before, or belongs to a piece of the function. -/
theorem fill_includes_only {o : Opts} {ns : Str} {skip : Bool} {l : List SortItem} {s : Fill} {y : Str} (h : y ∈ (fill o ns skip l s).includes) :
    y ∈ s.includes ∨ (o.trace = true ∧ y = traceInclude o ∧ ∃ n id, Piece.trace n id ∈ (fill o ns skip l s).body) ∨
      ∃ x, Piece.code x ∈ (fill o ns skip l s).body ∧ y ∈ x.decl.includes := by
  induction l generalizing s with
  | nil => exact .inl h
  | cons b l ih =>
    rw [fill] at h ⊢
    split at h
    · next hc =>
      rw [if_pos hc]
      rcases ih h with h | h
      · rw [fillBody_includes] at h
        split at h
        · exact .inl h
        · next hskip =>
          have hskip : skip = false := by simpa using hskip
          rcases List.mem_append.1 h with h | h
          · rcases List.mem_append.1 h with h | h
            · exact .inl h
            · split at h
              · next ht =>
                refine .inr (.inl ⟨ht, List.mem_singleton.1 h, s.traced, b.decl.ident, fill_body_keep ?_⟩)
                rw [fillBody_body, hskip]
                simp [entry, ht]
              · cases h
          · split at h
            · next hcode =>
              refine .inr (.inr ⟨b, fill_body_keep ?_, h⟩)
              rw [fillBody_body, hskip]
              have : ¬ b.code = [] := by simpa using hcode
              simp [entry, this]
            · cases h
      · exact .inr h
    · next hc => exact .inl h

/-- Each include line of a generated file has its reason in the file. -/
theorem gen_includes_only {c : Config} {o : Opts} {bs : List SortItem} {files : List OutFile} (hr : Loop.Returns (genStep c o bs) GenState.init files) :
    ∀ F ∈ files, ∀ y ∈ F.includes, y ∈ c.namespaceIncludes F.ns ∨ (o.trace = true ∧ y = traceInclude o ∧ ∃ n id, Piece.trace n id ∈ F.body) ∨
      ∃ x ∈ declsOf F, y ∈ x.decl.includes := by
  refine Loop.returns_induct (fun s => ∀ F ∈ s.files, ∀ y ∈ F.includes, y ∈ c.namespaceIncludes F.ns ∨
    (o.trace = true ∧ y = traceInclude o ∧ ∃ n id, Piece.trace n id ∈ F.body) ∨ ∃ x ∈ declsOf F, y ∈ x.decl.includes)
    (fun files => ∀ F ∈ files, ∀ y ∈ F.includes, y ∈ c.namespaceIncludes F.ns ∨
      (o.trace = true ∧ y = traceInclude o ∧ ∃ n id, Piece.trace n id ∈ F.body) ∨ ∃ x ∈ declsOf F, y ∈ x.decl.includes) ?_ ?_ (by simp [GenState.init]) hr
  · intro s s' hP hs
    unfold genStep at hs
    split at hs
    · cases hs
    · next b hb =>
      split at hs
      · injection hs with hs
        subst hs
        exact hP
      · injection hs with hs
        subst hs
        intro F hF y hy
        rcases List.mem_append.1 hF with hF | hF
        · exact hP F hF y hy
        · rw [List.mem_singleton] at hF
          subst hF
          rcases fill_includes_only hy with h | h | ⟨x, h1, h2⟩
          · exact .inl h
          · exact .inr (.inl h)
          · exact .inr (.inr ⟨x, List.mem_filterMap.2 ⟨_, h1, rfl⟩, h2⟩)
  · intro s r hP hs
    unfold genStep at hs
    split at hs
    · injection hs with hs
      subst hs
      exact hP
    · split at hs <;> cases hs

/-! ## One declaration -/

theorem Spec.Asked.one_root {E : Env} {r : Node → Nat → Prop} {d : Node} {l : Nat} (h : Asked E r d l) :
    ∃ d0 l0, r d0 l0 ∧ Asked E (fun d l => d = d0 ∧ l = l0) d l := by
  induction h with
  | root h => exact ⟨_, _, h, .root ⟨rfl, rfl⟩⟩
  | step _ hs ih =>
    obtain ⟨d0, l0, h1, h2⟩ := ih
    exact ⟨d0, l0, h1, .step h2 hs⟩

theorem classBinderStepsF_only {E : Env} {pre : List Func} {n i : Nat} {s : Step} (h : s ∈ classBinderStepsF E pre n i) :
    (∃ j, Inside E i j ∧ s = .visit (.cls j) 0) ∨ (∃ m ∈ pre, s = .visit (.fn m) 0) ∨ s = .lines [c!"<sstream> // __str__"] ∨
    ∃ j, Inside E i j ∧ s = .lines ((E.cfg.classIncludes (stdName E (E.cls j).qname)).map fun x =>
      if E.opts.annotateIncludes then x ++ c!" // +include_for_class" else x) := by
  induction n generalizing i pre with
  | zero => cases h
  | succ n ih =>
    simp only [classBinderStepsF, List.mem_append, List.mem_cons, List.not_mem_nil, or_false, List.mem_flatMap, List.mem_map] at h
    rcases h with ((h | ⟨k, hk, h⟩) | ⟨m, hm, h⟩) | h | h
    · exact .inr (.inr (.inr ⟨i, .refl, h⟩))
    · rcases ih h with ⟨j, hj, h⟩ | ⟨m, hm, -⟩ | h | ⟨j, hj, h⟩
      · exact .inl ⟨j, .inner hk hj, h⟩
      · cases hm
      · exact .inr (.inr (.inl h))
      · exact .inr (.inr (.inr ⟨j, .inner hk hj, h⟩))
    · exact .inr (.inl ⟨m, hm, h.symm⟩)
    · exact .inl ⟨i, .refl, h⟩
    · exact .inr (.inr (.inl h))

theorem prefixIncludes_called {E : Env} {i : Nat} {m : Func} (h : m ∈ (classOutput E i).prefixIncludes) : CalledBy E i m := by
  rw [classOutput, bindClassTextF] at h
  split at h
  · cases h
  · split at h
    · cases h
    · rcases List.mem_append.1 h with h | h
      · split at h
        · next ht =>
          obtain ⟨o, ho, e⟩ := List.mem_map.1 h
          exact .inl ⟨ht, o, ho, e⟩
        · cases h
      · obtain ⟨x, hx, e⟩ := List.mem_filterMap.1 h
        cases x <;> simp at e
        subst e
        exact .inr hx

theorem decl_wants {U : TransUnit} {v : Visit} {x : Str} (h : x ∈ (U.decl v).includes) : Wants U.E v x := by
  rw [decl_includes, includesOf] at h
  split at h
  · next r hc =>
    rw [(C54_exact U.E _ _ _ _ hc).1] at h
    rcases h with h | ⟨is, h, hx⟩ | ⟨d, l, ha, hb⟩
    · cases h
    · cases v with
      | fn F => simp [visitSteps, functionBinderSteps] at h
      | enm i => simp [visitSteps, enumBinderSteps] at h
      | cls i =>
        rcases classBinderStepsF_only h with ⟨j, -, e⟩ | ⟨m, -, e⟩ | e | ⟨j, hj, e⟩
        · cases e
        · cases e
        · injection e with e
          subst e
          rw [List.mem_singleton] at hx
          subst hx
          exact .printing
        · injection e with e
          subst e
          obtain ⟨y, hy, rfl⟩ := List.mem_map.1 hx
          exact .configured hj hy
    · obtain ⟨d0, l0, h0, ha⟩ := ha.one_root
      cases v with
      | fn F =>
        simp only [visitSteps, functionBinderSteps, List.mem_singleton, Step.visit.injEq] at h0
        obtain ⟨rfl, rfl⟩ := h0
        exact .own ha hb
      | enm i =>
        simp only [visitSteps, enumBinderSteps, List.mem_singleton, Step.visit.injEq] at h0
        obtain ⟨rfl, rfl⟩ := h0
        exact .own ha hb
      | cls i =>
        rcases classBinderStepsF_only h0 with ⟨j, hj, e⟩ | ⟨m, hm, e⟩ | e | ⟨j, hj, e⟩
        · injection e with e1 e2
          subst e1 e2
          exact .nested hj ha hb
        · injection e with e1 e2
          subst e1 e2
          exact .called (prefixIncludes_called hm) ha hb
        · cases e
        · cases e
  · cases h

/-- C76, the other direction: each include line before the fixed part of a generated source is there for a reason, and none is one that the user excluded.
It is an include of the user for the namespace of the source, or the header for trace statements if the user asked for them and there is one in the source, or a declaration bound in
the source wants it. -/
theorem C76_only (U : TransUnit) (o : Opts) (fs fs' : FS) (hw : fs.WF) (hn : U.visits.length + 1 < 2 ^ 32) (hd : DistinctNames U o)
    (h : U.Ends o fs (.done fs')) :
    ∃ srcs, Generated U o fs fs' srcs ∧ ∀ s ∈ srcs, ∃ (lines : List Str) (ns : Str),
      s.head = lines.flatMap (fun x => c!"#include " ++ x ++ c!"\n") ++ moduleHeader U.E.cfg o.stl ∧ lines.Nodup ∧ (∀ v ∈ s.bound, namespaceOf U.E v = ns) ∧
      ∀ x ∈ lines, (∀ e ∈ U.E.cfg.includesToSkip, ¬ e <+: x) ∧ (x ∈ U.E.cfg.namespaceIncludes ns ∨
        (o.trace = true ∧ x = traceInclude o ∧ ∃ n name, Stmt.traces n name ∈ s.stmts) ∨ ∃ v ∈ s.bound, Wants U.E v x) := by
  obtain ⟨st, bs, files, fs1, fs2, h⟩ := ends_done h
  have hn' : bs.length + 1 < 2 ^ 32 := by have := h.length; omega
  refine ⟨_, generated_of_done h hw hn hd, ?_⟩
  intro s hs
  obtain ⟨F, hF, rfl⟩ := List.mem_map.1 hs
  obtain ⟨lines, e, _, hnd, hl⟩ := C11_include_block U.E.cfg F.includes
  refine ⟨lines, F.ns, by rw [sourceOf, e], hnd, ?_, ?_⟩
  · intro v hv
    rw [bound_eq] at hv
    obtain ⟨b, hb, rfl⟩ := List.mem_map.1 hv
    obtain ⟨hm, _, _⟩ := h.decls_mem hn' hF hb
    rw [← C34_one_namespace _ o bs hn' files h.gen F hF b hb, (h.visitOf hm).2.1, decl_ns]
  · intro x hx
    obtain ⟨h1, h2⟩ := (hl x).1 hx
    refine ⟨h2, ?_⟩
    rcases gen_includes_only h.gen F hF x h1 with h3 | ⟨ht, h3, n, id, h4⟩ | ⟨b, hb, h3⟩
    · exact .inl h3
    · exact .inr (.inl ⟨ht, h3, n, id, List.mem_map.2 ⟨_, h4, rfl⟩⟩)
    · obtain ⟨hm, _, _⟩ := h.decls_mem hn' hF hb
      refine .inr (.inr ⟨visitOf U b, ?_, ?_⟩)
      · rw [bound_eq]
        exact List.mem_map_of_mem hb
      · rw [(h.visitOf hm).2.1] at h3
        exact decl_wants h3

/-- A run to which `C76_only` applies: all its include lines have reasons, and the function of the namespace `n` wants the header of `std::vector`. -/
example : ∃ fs' srcs, (Ex.vec [] [] false).Ends (Ex.opts 1000 false true) Ex.fsEmpty (.done fs') ∧
    Generated (Ex.vec [] [] false) (Ex.opts 1000 false true) Ex.fsEmpty fs' srcs ∧
    ∀ s ∈ srcs, ∃ lines : List Str, s.head = lines.flatMap (fun x => c!"#include " ++ x ++ c!"\n") ++ moduleHeader (Ex.vec [] [] false).E.cfg false ∧
      ∀ x ∈ lines, ∃ v ∈ s.bound, Wants (Ex.vec [] [] false).E v x := by
  obtain ⟨fs', h, -⟩ : ∃ fs', (Ex.vec [] [] false).Ends (Ex.opts 1000 false true) Ex.fsEmpty (.done fs') ∧ (fun _ => true) fs' = true :=
    Ex.ends_after (n := 20) (by decide +kernel)
  obtain ⟨srcs, hg, hr⟩ := C76_only _ (Ex.opts 1000 false true) Ex.fsEmpty fs' Ex.fsEmpty_wf (by decide) (.inr (.inl rfl)) h
  refine ⟨fs', srcs, h, hg, ?_⟩
  intro s hs
  obtain ⟨lines, ns, e, -, -, hl⟩ := hr s hs
  refine ⟨lines, e, fun x hx => ?_⟩
  rcases (hl x hx).2 with h | ⟨h, -⟩ | h
  · cases h
  · cases h
  · exact h

example : ∃ v ∈ (Ex.vec [] [] false).visits, Wants (Ex.vec [] [] false).E v c!"<vector>" :=
  ⟨.cls 0, by decide, .own (.root ⟨rfl, rfl⟩) (.cls (by decide +kernel))⟩

end Binder
