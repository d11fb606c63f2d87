import Verif.Lemmas.RunExample
import Verif.Props.Includes

/-!
# C69 - C76: whole runs (`source/main.cpp`, `source/context.cpp`)

`U.Ends o fs out` reads: binder, run on the translation unit `U` with the options `o` and the files `fs`, ends in the way `out`.
-/

namespace Binder

open Spec Cxx

/-! ## C69: what is bound -/

theorem generated_of_done {U : TransUnit} {o : Opts} {fs fs' fs1 fs2 : FS} {st : BindState} {bs : List SortItem} {files : List OutFile}
    (h : RunDone U o fs fs' st bs files fs1 fs2) (hw : fs.WF) (hn : U.visits.length + 1 < 2 ^ 32) (hd : DistinctNames U o) :
    Generated U o fs fs' (files.map (sourceOf U o)) := by
  have hn' : bs.length + 1 < 2 ^ 32 := by have := h.length; omega
  have hb : (files.map (sourceOf U o)).flatMap Source.bound = (expected U.E.cfg bs).map (visitOf U) := by
    rw [← C31_emitted_once_in_order _ o bs hn' files h.gen, List.map_flatMap, List.flatMap_map]
    simp only [bound_eq]
  have hident : ∀ b ∈ bs, identOf U.E (visitOf U b) = b.decl.ident := by
    intro b hb; rw [← decl_ident, ← (h.visitOf hb).2.1]
  refine ⟨h.written hw hn hd, ?_, ?_, ?_⟩
  · rw [hb]
    have h1 : ((expected U.E.cfg bs).map (·.decl.ident)).Nodup := h.idents.sublist (List.filter_sublist.map _)
    have h2 : ((expected U.E.cfg bs).map (visitOf U)).map (identOf U.E) = (expected U.E.cfg bs).map (·.decl.ident) := by
      rw [List.map_map]
      exact List.map_congr_left fun b hb => hident b (List.mem_filter.1 hb).1
    rw [← h2] at h1
    exact List.Pairwise.of_map _ (fun a b h e => h (by rw [e])) h1
  · intro v
    rw [hb, List.mem_map]
    constructor
    · rintro ⟨b, hm, rfl⟩
      obtain ⟨h1, h2⟩ := List.mem_filter.1 hm
      rw [Bool.and_eq_true] at h2
      have hv := h.visitOf h1
      refine ⟨h.reached h1 (by simpa using h2.1), ?_⟩
      rw [← decl_ns, ← hv.2.1]
      simpa using h2.2
    · rintro ⟨hr, hns⟩
      obtain ⟨b, hm, e⟩ := h.item_of hr.considered
      have hv := h.visitOf hm
      have : visitOf U b = v := considered_inj hv.1 hr.considered (hv.2.1.symm.trans e)
      rw [this] at hv
      refine ⟨b, List.mem_filter.2 ⟨hm, ?_⟩, this⟩
      have hne : b.code ≠ [] := by rw [hv.2.2.1 hr]; exact bindingOf_ne_nil hr
      have hns' : U.E.cfg.binderForNamespaces b.decl.ns = none := by rw [e, decl_ns]; exact hns
      rw [hns']
      cases hc : b.code with
      | nil => exact absurd hc hne
      | cons _ _ => rfl
  · intro s hs f ns hf
    obtain ⟨F, hF, rfl⟩ := List.mem_map.1 hs
    obtain ⟨p, hp, hpe⟩ := List.mem_map.1 hf
    have key := gen_each hn' h.gen (fun F => ∀ f ns, (Piece.nsCall f ns ∈ F.body ∨ Piece.addOn f ns ∈ F.body) →
        (U.E.cfg.binderForNamespaces ns = some f ∨ U.E.cfg.addOnBinderForNamespaces ns = some f) ∧ ∃ b ∈ bs, b.code ≠ [] ∧ b.decl.ns = ns) (by
      intro s s' b F k hb hc hw f ns hm
      have e := write_call_ns hw hm
      refine ⟨?_, b, List.mem_of_getElem? hb, hc, e⟩
      rw [hw.body, List.mem_append, List.mem_append, e] at hm
      have hno : ∀ p ∈ (if (U.E.cfg.binderForNamespaces ns).isSome = true then [] else emit o s.traced ((bs.drop s.i).take k)),
          (∃ n id, p = .trace n id) ∨ ∃ b, p = .code b := by
        intro p hp
        split at hp
        · cases hp
        · exact emit_only _ _ _ p hp
      have hstart : Piece.nsCall f ns ∈ startBody U.E.cfg ns (s.entrance ns == 0) ∨ Piece.addOn f ns ∈ startBody U.E.cfg ns (s.entrance ns == 0) := by
        rcases hm with (hm | hm) | (hm | hm)
        · exact .inl hm
        · rcases hno _ hm with ⟨_, _, h⟩ | ⟨_, h⟩ <;> cases h
        · exact .inr hm
        · rcases hno _ hm with ⟨_, _, h⟩ | ⟨_, h⟩ <;> cases h
      generalize (s.entrance ns == 0) = first at hstart
      unfold startBody at hstart
      cases h1 : U.E.cfg.binderForNamespaces ns <;> cases h2 : U.E.cfg.addOnBinderForNamespaces ns <;> cases first <;>
        simp [h1, h2, codeText, Piece.text] at hstart ⊢
      all_goals first | exact hstart.symm | (left; exact hstart.symm) | skip) F hF f ns (by
      cases p with
      | nsCall f' ns' => cases hpe; exact .inl hp
      | addOn f' ns' => cases hpe; exact .inr hp
      | trace n id => cases hpe
      | code b => cases hpe)
    obtain ⟨h1, b, hb, hc, hbn⟩ := key
    refine ⟨h1, visitOf U b, h.reached hb hc, ?_⟩
    rw [← decl_ns, ← (h.visitOf hb).2.1]
    exact hbn

/-- C69. The generated sources bind exactly the declarations that are reached by the requests of the user (`Reached`), each exactly once;
the root module calls the functions of all sources; calls of functions that the user wrote for a namespace are made only for namespaces
that contain such declarations. Namespaces with a binder of their own are left to it. -/
theorem C69_exactly_once (U : TransUnit) (o : Opts) (fs fs' : FS) (hw : fs.WF) (hn : U.visits.length + 1 < 2 ^ 32) (hd : DistinctNames U o)
    (h : U.Ends o fs (.done fs')) : ∃ srcs : List Source, Generated U o fs fs' srcs := by
  obtain ⟨st, bs, files, fs1, fs2, h⟩ := ends_done h
  exact ⟨_, generated_of_done h hw hn hd⟩

/-- The program of `Ex.unit` with the entry `+namespace n`: the base `n::B` is registered before `n::A`, the class `m::S` is bound because
`n::f` needs it, `m::T` is not bound. -/
theorem Ex.unit_done : ∃ fs', Ex.unit.Ends (Ex.opts 1000) Ex.fsEmpty (.done fs') ∧
    ((fs'.files c!"out/mod.sources" == some c!"mod.cpp\nn.cpp\nm.cpp\nn_1.cpp\n") &&
     (fs'.files c!"out/n_1.cpp" == some (c!"#include <m.h>\n#include <n.h>\n#include <sstream> // __str__\n\n#include <functional>\n" ++
      c!"#include <pybind11/pybind11.h>\n#include <string>\n\n#ifndef BINDER_PYBIND11_TYPE_CASTER\n\t#define BINDER_PYBIND11_TYPE_CASTER\n" ++
      c!"\tPYBIND11_DECLARE_HOLDER_TYPE(T, std::shared_ptr<T>, false)\n\tPYBIND11_DECLARE_HOLDER_TYPE(T, T*, false)\n" ++
      c!"\tPYBIND11_MAKE_OPAQUE(std::shared_ptr<void>)\n#endif\n\n" ++
      c!"void bind_n_1(std::function< pybind11::module &(std::string const &namespace_) > &M)\n{\n\t// n::f(m::S) file:n.h line:3\n" ++
      c!"\tM(\"n\").def(\"f\", (int (*)(m::S)) &n::f, \"C++: n::f(m::S) --> int\", pybind11::arg(\"s\"));\n\n" ++
      c!"\t{ // n::A file:n.h line:2\n\t\tpybind11::class_<n::A, std::shared_ptr<n::A>, n::B> cl(M(\"n\"), \"A\", \"\");\n" ++
      c!"\t\tcl.def( pybind11::init( [](){ return new n::A(); } ) );\n\t}\n}\n"))) = true :=
  Ex.ends_after (n := 20) (by decide +kernel)

/-- The hypotheses of `C69_exactly_once` (and of C74, C76) are met by this run. -/
example : Ex.fsEmpty.WF ∧ Ex.unit.visits.length + 1 < 2 ^ 32 ∧ DistinctNames Ex.unit (Ex.opts 1000) ∧ Ex.unit.env.Wellfounded ∧
    ∃ fs', Ex.unit.Ends (Ex.opts 1000) Ex.fsEmpty (.done fs') :=
  ⟨Ex.fsEmpty_wf, by decide, Ex.unit_distinct 1000, Ex.env_wellfounded, Ex.unit_done.imp fun _ h => h.1⟩

/-! ## C70: a run ends -/

theorem mem_deps (E : Env) (i j : Nat) : j ∈ (classOutput E i).deps ↔ builtinDecl E (E.cls i).qname = false ∧
    E.cfg.binders (stdName E (E.cls i).qname) = none ∧ (E.cls i).isAnonymous = false ∧ ListedBase E i j := by
  rw [classOutput, bindClassTextF]
  cases hb : builtinDecl E (E.cls i).qname with
  | true => simp [ClassOutput.empty]
  | false =>
    simp only [Bool.false_eq_true, if_false]
    cases he : E.cfg.binders (stdName E (E.cls i).qname) with
    | some b => simp
    | none =>
      cases ha : (E.cls i).isAnonymous with
      | true => simp
      | false => simp [mem_boundBases]

theorem needs_iff {U : TransUnit} {v : Visit} {b : SortItem} (e : b.decl = U.decl v) {c : Rec} (h : Needs b c) :
    ∃ i j, v = .cls i ∧ c = recOf U.E j ∧ j ∈ (classOutput U.E i).deps ∧ builtinDecl U.E (U.E.cls j).qname = false ∧ b.code ≠ [] := by
  obtain ⟨h1, h2, h3⟩ := h
  unfold SortItem.deps at h2
  split at h2
  · rename_i hc
    rw [e] at h1 h2
    cases v with
    | fn F => cases h1
    | enm i => cases h1
    | cls i =>
      obtain ⟨j, hj, rfl⟩ := List.mem_map.1 h2
      exact ⟨i, j, rfl, rfl, hj, h3, by intro h; rw [h] at hc; simp at hc⟩
  · cases h2

theorem sortInput_acyclic {U : TransUnit} (hw : U.env.Wellfounded) (st : BindState) : Acyclic (sortInput (register U.offers) st) := by
  have h1 : ∀ q p, DependsOn (sortInput (register U.offers) st) q p → U.env.baseRank p.ptr < U.env.baseRank q.ptr := by
    rintro q p ⟨b, hb, hr, hn⟩
    have hm : b.decl ∈ (considered U).map U.decl := by rw [← sortInput_decls U st]; exact List.mem_map_of_mem hb
    obtain ⟨v, _, e⟩ := List.mem_map.1 hm
    obtain ⟨i, j, rfl, rfl, hj, _, _⟩ := needs_iff e.symm hn
    rw [← e] at hr
    cases hr
    obtain ⟨_, _, _, ⟨⟨base, hbm, _, hbr⟩, _⟩⟩ := (mem_deps _ _ _).1 hj
    exact hw.bases i base hbm j hbr
  have h2 : ∀ q p, DependsPlus (sortInput (register U.offers) st) q p → U.env.baseRank p.ptr < U.env.baseRank q.ptr := by
    intro q p h
    induction h with
    | one h => exact h1 _ _ h
    | more h _ ih => exact Nat.lt_trans ih (h1 _ _ h)
  exact fun c h => Nat.lt_irrefl _ (h2 c c h)

theorem bs_length {U : TransUnit} {st : BindState} {bs : List SortItem}
    (h : Loop.Returns sortStep (sortInput (register U.offers) st) (some bs)) : bs.length ≤ U.visits.length := by
  have h1 := (C28_permutation _ _ h).length_eq
  have h2 := congrArg List.length (sortInput_decls U st)
  rw [List.length_map, List.length_map, considered_eq] at h2
  rw [h1, h2]
  exact Nat.le_trans (firstOfName_length _ _) (List.length_filter_le _ _)

/-- C70. A run ends, whatever the declarations and the configuration, provided the limit for the size of files is at least 1 (and no more
declarations than a 32-bit number can count). -/
theorem C70_terminates (U : TransUnit) (o : Opts) (fs : FS) (hw : U.env.Wellfounded) (hn : U.visits.length + 1 < 2 ^ 32) (hmax : 1 ≤ o.maxLen) :
    ∃ out, U.Ends o fs out := by
  unfold TransUnit.Ends TransUnit.runF
  cases hc : U.conflictIn [] (U.visits.filter U.offered) with
  | true => exact ⟨_, 0, rfl⟩
  | false =>
    simp only [Bool.false_eq_true, if_false]
    obtain ⟨st, h1⟩ := C25_terminates U.offers (offers_productive U)
    obtain ⟨r, n2, h2⟩ := sort_returns (sortInput_acyclic hw st)
    cases ho : writeFile fs (rootPath o) [] with
    | none => exact ⟨.thrown fs, (register U.offers).binders.length + 1, by simp only [generateF, h1, ho]⟩
    | some fs1 =>
      cases r with
      | none =>
        refine ⟨.exit fs1, (register U.offers).binders.length + 1 + n2, ?_⟩
        simp only [generateF, Loop.run_mono h1 (Nat.le_add_right _ n2), ho, Loop.run_mono h2 (Nat.le_add_left _ _)]
      | some bs =>
        have hl := bs_length ⟨n2, h2⟩
        obtain ⟨files, h3⟩ := C32_terminates U.E.cfg o bs (by omega) hmax
        cases hu : updateUntil o.pre fs1 (sourceFiles U.E.cfg o files) with
        | inl fs2 =>
          refine ⟨.thrown fs2, (register U.offers).binders.length + 1 + n2 + (2 * bs.length + 4), ?_⟩
          simp only [generateF, Loop.run_mono h1 (by omega : _ ≤ (register U.offers).binders.length + 1 + n2 + (2 * bs.length + 4)), ho,
            Loop.run_mono h2 (by omega : _ ≤ (register U.offers).binders.length + 1 + n2 + (2 * bs.length + 4)),
            Loop.run_mono h3 (by omega : _ ≤ (register U.offers).binders.length + 1 + n2 + (2 * bs.length + 4)), hu]
        | inr fs2 =>
          refine ⟨.done (finishRun U.E.cfg o bs files fs2), (register U.offers).binders.length + 1 + n2 + (2 * bs.length + 4), ?_⟩
          simp only [generateF, Loop.run_mono h1 (by omega : _ ≤ (register U.offers).binders.length + 1 + n2 + (2 * bs.length + 4)), ho,
            Loop.run_mono h2 (by omega : _ ≤ (register U.offers).binders.length + 1 + n2 + (2 * bs.length + 4)),
            Loop.run_mono h3 (by omega : _ ≤ (register U.offers).binders.length + 1 + n2 + (2 * bs.length + 4)), hu]

/-- The result of a run is determined by its inputs. -/
theorem C70_deterministic (U : TransUnit) (o : Opts) (fs : FS) (out out' : Outcome) (h : U.Ends o fs out) (h' : U.Ends o fs out') : out = out' := by
  obtain ⟨n, h⟩ := h
  obtain ⟨m, h'⟩ := h'
  have mono : ∀ {n m : Nat} {out : Outcome}, n ≤ m → U.runF n o fs = some out → U.runF m o fs = some out := by
    intro n m out hnm h
    unfold TransUnit.runF at h ⊢
    split
    · rename_i hc; rw [if_pos hc] at h; exact h
    · rename_i hc
      rw [if_neg hc] at h
      simp only [generateF] at h ⊢
      cases h1 : Loop.run (bindStep (register U.offers)) n (bindStart (register U.offers)) with
      | none => rw [h1] at h; cases h
      | some st =>
        rw [h1] at h
        rw [Loop.run_mono h1 hnm]
        simp only at h ⊢
        cases ho : writeFile fs (rootPath o) [] with
        | none => rw [ho] at h; exact h
        | some fs1 =>
          rw [ho] at h
          simp only at h ⊢
          cases h2 : Loop.run sortStep n (sortInput (register U.offers) st) with
          | none => rw [h2] at h; cases h
          | some r =>
            rw [h2] at h
            rw [Loop.run_mono h2 hnm]
            cases r with
            | none => exact h
            | some bs =>
              simp only at h ⊢
              cases h3 : Loop.run (genStep U.E.cfg o bs) n GenState.init with
              | none => rw [h3] at h; cases h
              | some files => rw [h3] at h; rw [Loop.run_mono h3 hnm]; exact h
  have e1 := mono (Nat.le_max_left n m) h
  have e2 := mono (Nat.le_max_right n m) h'
  rw [e1] at e2
  exact Option.some.inj e2

/-- C70 fails for `--max-file-size 0`: if anything is to be bound, the run does not return. -/
theorem C70_zero_false (U : TransUnit) (o : Opts) (fs fs' : FS) (hn : U.visits.length + 1 < 2 ^ 32) (ho : o.maxLen = 0)
    (v : Visit) (hv : Reached U v) : ¬ U.Ends o fs (.done fs') := by
  intro h
  obtain ⟨st, bs, files, fs1, fs2, h⟩ := ends_done h
  have hn' : bs.length + 1 < 2 ^ 32 := by have := h.length; omega
  obtain ⟨b, hb, e⟩ := h.item_of hv.considered
  have hvb := h.visitOf hb
  have : visitOf U b = v := considered_inj hvb.1 hv.considered (hvb.2.1.symm.trans e)
  rw [this] at hvb
  have := C32_zero_diverges U.E.cfg o bs hn' ho ⟨b, hb, by rw [hvb.2.2.1 hv]; exact bindingOf_ne_nil hv⟩
  obtain ⟨n, hg⟩ := h.gen
  rw [this n] at hg
  cases hg

theorem Ex.unit_considered : considered Ex.unit = [.cls 0, .cls 1] ++ .cls 2 :: [.cls 3, .fn Ex.fun_f] := by
  rw [considered_eq]
  decide +kernel

/-- In the example program `n::f` is reached because the user asks for it, and `m::S` because `n::f` needs it. -/
theorem Ex.unit_reached : Reached Ex.unit (.fn Ex.fun_f) ∧ Reached Ex.unit (.cls 2) := by
  have h : Reached Ex.unit (.fn Ex.fun_f) := by
    refine .asked ?_ ⟨True.intro, answer_false.1 (by decide +kernel), ?_⟩ rfl ?_
    · rw [Ex.unit_considered]; simp
    · unfold Converted
      decide +kernel
    · exact saysYes_iff.1 (by decide +kernel)
  refine ⟨h, .needed h (t := c!"m::S") (by decide +kernel) ⟨_, _, Ex.unit_considered, by decide +kernel, ?_⟩ ⟨True.intro, answer_false.1 (by decide +kernel), ?_⟩⟩
  · intro x hx
    simp only [List.mem_cons, List.not_mem_nil, or_false] at hx
    rcases hx with rfl | rfl <;> decide +kernel
  · unfold Converted
    decide +kernel

/-! ## C71: bases without a binding -/

/-- C71. The run stops with the error message "Could not find binder for type" only if a class that is to be bound names a base class
that can be bound and is not skipped, but is not among the declarations considered. -/
theorem C71_exit_only_if_missing (U : TransUnit) (o : Opts) (fs fs' : FS) (h : U.Ends o fs (.exit fs')) :
    ∃ i j, Reached U (.cls i) ∧ ListedBase U.E i j ∧ builtinDecl U.E (U.E.cls j).qname = false ∧ .cls j ∉ considered U := by
  obtain ⟨hc, _, st, hb, hs⟩ := ends_exit h
  obtain ⟨b, hm, c, hn, hnd⟩ := sort_exit hs
  obtain ⟨v, hv, e, _, hr⟩ := item_of_sortInput hc hb hm
  obtain ⟨i, j, rfl, rfl, hj, hbi, hcode⟩ := needs_iff e hn
  refine ⟨i, j, Classical.byContradiction fun hnr => hcode (hr hnr), ((mem_deps _ _ _).1 hj).2.2.2, hbi, fun hjc => hnd ?_⟩
  obtain ⟨b', hb', e'⟩ := sortInput_of_considered (st := st) hjc
  exact ⟨b', hb', by rw [e']; rfl⟩

/-- C71. And it always does if no class of that name is considered. -/
theorem C71_missing_exits (U : TransUnit) (o : Opts) (fs : FS) (hw : U.env.Wellfounded)
    (hc : U.conflictIn [] (U.visits.filter U.offered) = false) (hroot : '/' ∉ o.root)
    (hpre : fs.dirs o.pre = true) (ho : fs.dirs (rootPath o) = false)
    (i j : Nat) (hr : Reached U (.cls i)) (hj : ListedBase U.E i j) (hbi : builtinDecl U.E (U.E.cls j).qname = false)
    (hx : U.E.cfg.binders (stdName U.E (U.E.cls i).qname) = none) (ha : (U.E.cls i).isAnonymous = false)
    (hmiss : ∀ k, .cls k ∈ considered U → classQualifiedName U.E (U.E.cls k) ≠ classQualifiedName U.E (U.E.cls j)) :
    ∃ fs', U.Ends o fs (.exit fs') := by
  obtain ⟨st, h1⟩ := C25_terminates U.offers (offers_productive U)
  obtain ⟨b, hb, e⟩ := sortInput_of_considered (st := st) hr.considered
  have hcode : b.code ≠ [] := by
    obtain ⟨v, hv, e', h2, _⟩ := item_of_sortInput hc ⟨_, h1⟩ hb
    have : v = .cls i := considered_inj hv hr.considered (e'.symm.trans e)
    subst this
    rw [h2 hr]
    exact bindingOf_ne_nil hr
  have hbi' : builtinDecl U.E (U.E.cls i).qname = false := by
    cases hq : builtinDecl U.E (U.E.cls i).qname with
    | false => rfl
    | true => exact absurd hq hr.allowed.notConverted
  have hneeds : Needs b (recOf U.E j) := by
    refine ⟨by rw [e]; rfl, ?_, hbi⟩
    unfold SortItem.deps
    rw [if_pos (by simpa using hcode), e]
    exact List.mem_map_of_mem ((mem_deps _ _ _).2 ⟨hbi', hx, ha, hj⟩)
  obtain ⟨n2, h2⟩ := (C30_missing_is_fatal _ b hb _ hneeds (by
    intro x hx C hC he
    have hm : x.decl ∈ (considered U).map U.decl := by rw [← sortInput_decls U st]; exact List.mem_map_of_mem hx
    obtain ⟨v, hv, ev⟩ := List.mem_map.1 hm
    rw [← ev] at hC
    cases v with
    | fn F => cases hC
    | enm k => cases hC
    | cls k =>
      have hC' : recOf U.E k = C := Option.some.inj hC
      rw [← hC'] at he
      simp only [recOf] at he
      exact hmiss k hv he)).2 (sortInput_acyclic hw st)
  obtain ⟨fs1, ho'⟩ := writeFile_ok [] ho (by rw [rootPath, parentDir_base (by simp [hroot])]; exact hpre : fs.dirs (parentDir (rootPath o)) = true)
  refine ⟨fs1, (register U.offers).binders.length + 1 + n2, ?_⟩
  rw [TransUnit.runF, hc]
  simp only [Bool.false_eq_true, if_false, generateF, Loop.run_mono h1 (Nat.le_add_right _ n2), ho', Loop.run_mono h2 (Nat.le_add_left _ _)]

/-- A class that derives from a public nested class of another class ends the run with the error message, although everything is
declared and binder can bind the nested class: it is bound with the class around it, so it is not among the declarations considered. -/
theorem C71_nested_base_false : Ex.nestedBase.env.Wellfounded ∧ ListedBase Ex.nestedBase.E 2 1 ∧
    1 ∈ nestedBound Ex.nestedBase.E (Ex.nestedBase.E.cls 0) ∧ ∃ fs', Ex.nestedBase.Ends (Ex.opts 1000) Ex.fsEmpty (.exit fs') := by
  obtain ⟨fs', h, _⟩ : ∃ fs', Ex.nestedBase.Ends (Ex.opts 1000) Ex.fsEmpty (.exit fs') ∧ (fun _ => true) fs' = true :=
    Ex.ends_afterExit (n := 20) (by decide +kernel)
  exact ⟨Ex.nestedBase_wellfounded, (mem_boundBases _ _ _).1 (by decide +kernel), by decide +kernel, fs', h⟩

/-! ## C72: a run that fails -/

/-- C72. A run that fails changes no file but the root module and `.cpp` files below the output directory; if it fails because of contradictory
requests or because the root module cannot be opened (a directory has its name, or the output directory does not exist), it changes nothing; if it fails because of a missing base, only the root module. -/
theorem C72_failed_run_partial (U : TransUnit) (o : Opts) (fs fs' : FS) :
    (U.conflictIn [] (U.visits.filter U.offered) = true → U.Ends o fs (.thrown fs') → fs' = fs) ∧
    (fs.dirs (rootPath o) = true ∨ '/' ∉ o.root ∧ fs.dirs o.pre = false → U.Ends o fs (.thrown fs') → fs' = fs) ∧
    (U.Ends o fs (.exit fs') → fs'.files (rootPath o) = some [] ∧ ∀ x, x ≠ rootPath o → fs'.files x = fs.files x) ∧
    (U.visits.length + 1 < 2 ^ 32 → U.Ends o fs (.thrown fs') →
      ∀ x, x ≠ rootPath o → (∀ name, x ≠ o.pre ++ c!"/" ++ name ++ c!".cpp") → fs'.files x = fs.files x) := by
  refine ⟨?_, ?_, ?_, ?_⟩
  · rintro hc ⟨n, h⟩
    rw [TransUnit.runF, hc] at h
    cases h; rfl
  · rintro hd ⟨n, h⟩
    rw [TransUnit.runF] at h
    split at h
    · cases h; rfl
    · have hno : writeFile fs (rootPath o) [] = none := by
        unfold writeFile
        rcases hd with hd | ⟨hr, hd⟩
        · rw [hd]; rfl
        · rw [rootPath, parentDir_base (by simp [hr]), hd]; simp
      simp only [generateF, hno] at h
      split at h
      · cases h
      · cases h; rfl
  · intro h
    have := writeFile_some (ends_exit h).2.1
    rw [this]
    exact ⟨by simp, fun x hx => by simp [hx]⟩
  · rintro hn ⟨n, h⟩ x hx hname
    rw [TransUnit.runF] at h
    split at h
    · cases h; rfl
    simp only [generateF] at h
    split at h
    · cases h
    rename_i st hst
    split at h
    · cases h; rfl
    rename_i fs1 h1
    split at h
    · cases h
    · cases h
    rename_i bs hbs
    split at h
    · cases h
    rename_i files hfiles
    split at h
    · rename_i fs2 h2
      cases h
      have hl : bs.length + 1 < 2 ^ 32 := by
        have := bs_length ⟨n, hbs⟩
        omega
      rw [updateUntil_frame h2 x, writeFile_some h1]
      · simp [hx]
      · intro p hp
        unfold sourceFiles at hp
        split at hp
        · cases hp
        · obtain ⟨F, hF, rfl⟩ := List.mem_map.1 hp
          obtain ⟨np, k, b, _, _, hF', _⟩ := gen_name hl ⟨n, hfiles⟩ hF
          have := hname (fileStem o np k)
          simp only [hF']
          simpa using this
    · cases h

/-- C72 fails for the root module: the one of an earlier run is lost when the run ends because of a missing base. -/
theorem C72_root_lost_false : ∃ (fs fs' : FS), fs.WF ∧ fs.files (rootPath (Ex.opts 1000)) = some c!"earlier" ∧
    Ex.nestedBase.Ends (Ex.opts 1000) fs (.exit fs') ∧ fs'.files (rootPath (Ex.opts 1000)) = some [] := by
  obtain ⟨fs', h, h2⟩ : ∃ fs', Ex.nestedBase.Ends (Ex.opts 1000) Ex.fsOld (.exit fs') ∧
      (fun fs => fs.files (rootPath (Ex.opts 1000)) == some []) fs' = true := Ex.ends_afterExit (n := 20) (by decide +kernel)
  refine ⟨Ex.fsOld, fs', ?_, by decide, h, by simpa using h2⟩
  intro p hp
  have : p = c!"out" := by simpa [Ex.fsOld] using hp
  subst this; decide

/-! ## C74: repeating a run -/

/-- C74. Running again on the same unit succeeds, leaves the content of every file as it is, and rewrites only the root module and the two
list files: no source is touched, so nothing but the root module needs to be compiled again. -/
theorem C74_repeat (U : TransUnit) (o : Opts) (fs fs' : FS) (hw : fs.WF) (hn : U.visits.length + 1 < 2 ^ 32) (hd : DistinctNames U o)
    (h : U.Ends o fs (.done fs')) : ∃ fs'', U.Ends o fs' (.done fs'') ∧ fs''.files = fs'.files ∧
      ∃ written, fs''.writes = fs'.writes ++ written ∧ ∀ x ∈ written,
        x = rootPath o ∨ x = o.pre ++ c!"/" ++ o.root ++ c!".sources" ∨ x = o.pre ++ c!"/" ++ o.root ++ c!".modules" := by
  obtain ⟨st, bs, files, fs1, fs2, h⟩ := ends_done h
  obtain ⟨fs'', g1, g2, h', hf, hl⟩ := h.again hw (by have := h.length; omega) hd
  exact ⟨fs'', ends_of_done h', hf, hl⟩

/-! ## C73: several input files -/

theorem runUnitsF_last {n : Nat} {o : Opts} {fs fs' : FS} {Us : List TransUnit} {U : TransUnit}
    (h : runUnitsF n o fs (Us ++ [U]) = some (.done fs')) : ∃ fs1, runUnitsF n o fs Us = some (.done fs1) ∧ U.Ends o fs1 (.done fs') := by
  induction Us generalizing fs with
  | nil =>
    refine ⟨fs, rfl, n, ?_⟩
    simp only [List.nil_append, runUnitsF] at h
    cases hu : U.runF n o fs with
    | none => rw [hu] at h; cases h
    | some out =>
      rw [hu] at h
      cases out with
      | done x => exact h
      | exit x => cases h
      | thrown x => cases h
  | cons V Us ih =>
    simp only [List.cons_append, runUnitsF] at h ⊢
    cases hu : V.runF n o fs with
    | none => rw [hu] at h; cases h
    | some out =>
      rw [hu] at h
      cases out with
      | done x => simp only at h ⊢; exact ih h
      | exit x => cases h
      | thrown x => cases h

/-- C73, partial. If several input files are given, the module contains the bindings for the last one (see `C73_several_false`). -/
theorem C73_last_file_partial (n : Nat) (o : Opts) (fs fs' : FS) (Us : List TransUnit) (U : TransUnit)
    (h : runUnitsF n o fs (Us ++ [U]) = some (.done fs')) :
    ∃ fs1, (fs1.WF → U.visits.length + 1 < 2 ^ 32 → DistinctNames U o → ∃ srcs, Generated U o fs1 fs' srcs) := by
  obtain ⟨fs1, _, h1⟩ := runUnitsF_last h
  exact ⟨fs1, fun hw hn hd => C69_exactly_once U o fs1 fs' hw hn hd h1⟩

/-- C73 fails for several input files: the module for `nestedOrder.h` followed by `m.h`, `n.h` (each with its own main file) has only the
bindings of the last file; the sources of the first one are left on the disk, but neither called nor listed. -/
theorem C73_several_false : ∃ fs', runUnitsF 20 (Ex.opts 1000) Ex.fsEmpty [Ex.unit, Ex.nestedOrder] = some (.done fs') ∧
    fs'.files c!"out/mod.sources" = some c!"mod.cpp\na.cpp\n" ∧ (fs'.files c!"out/n.cpp").isSome = true ∧
    ∃ root, fs'.files c!"out/mod.cpp" = some root ∧ c!", \"_encapsulated_data_\");\n\n\tbind_a(M);\n\n}\n" <:+ root := by
  have h : (Ex.after (runUnitsF 20 (Ex.opts 1000) Ex.fsEmpty [Ex.unit, Ex.nestedOrder])).any (fun fs' =>
      fs'.files c!"out/mod.sources" == some c!"mod.cpp\na.cpp\n" && (fs'.files c!"out/n.cpp").isSome &&
      (fs'.files c!"out/mod.cpp").any fun root => c!", \"_encapsulated_data_\");\n\n\tbind_a(M);\n\n}\n".isSuffixOf root) = true := by
    decide +kernel
  cases e : Ex.after (runUnitsF 20 (Ex.opts 1000) Ex.fsEmpty [Ex.unit, Ex.nestedOrder]) with
  | none => rw [e] at h; cases h
  | some fs' =>
    rw [e] at h
    simp only [Option.any_some, Bool.and_eq_true, beq_iff_eq] at h
    refine ⟨fs', Ex.after_some e, h.1.1, h.1.2, ?_⟩
    cases hr : fs'.files c!"out/mod.cpp" with
    | none => rw [hr] at h; cases h.2
    | some root =>
      rw [hr] at h
      have := h.2
      exact ⟨root, rfl, List.isSuffixOf_iff_suffix.1 this⟩

/-! ## C75: importing the module -/

theorem registersF_cases {E : Env} {n i k : Nat} (h : k ∈ registersF E n i) : k = i ∨ ∃ j, k ∈ nestedBound E (E.cls j) := by
  induction n generalizing i with
  | zero => cases h
  | succ n ih =>
    rw [registersF] at h
    split at h
    · cases h
    split at h
    · exact .inl (List.mem_singleton.1 h)
    rcases List.mem_append.1 h with h | h
    · split at h
      · cases h
      · exact .inl (List.mem_singleton.1 h)
    · obtain ⟨j, hj, hk⟩ := List.mem_flatMap.1 h
      rcases ih hk with rfl | h
      · exact .inr ⟨i, hj⟩
      · exact .inr h

theorem registers_self {E : Env} {i : Nat} (h1 : builtinDecl E (E.cls i).qname = false) (h2 : (E.cls i).isAnonymous = false) :
    i ∈ registers E (.cls i) := by
  rw [registers, registersF, h1, h2]
  simp only [Bool.false_eq_true, if_false]
  split <;> simp

theorem flatMap_split {α β : Type} (f : α → List β) : ∀ (l : List α) (u : List β) (x : β) (v : List β), l.flatMap f = u ++ x :: v →
    ∃ l1 a l2 u' w, l = l1 ++ a :: l2 ∧ u = l1.flatMap f ++ u' ∧ f a = u' ++ x :: w
  | [], u, x, v, h => by simp at h
  | a :: l, u, x, v, h => by
    rw [List.flatMap_cons] at h
    rcases List.append_eq_append_iff.1 h with ⟨c, e1, e2⟩ | ⟨c, e1, e2⟩
    · obtain ⟨l1, b, l2, u', w, r1, r2, r3⟩ := flatMap_split f l c x v e2
      exact ⟨a :: l1, b, l2, u', w, by rw [r1]; rfl, by rw [e1, r2]; simp, r3⟩
    · cases c with
      | nil =>
        obtain ⟨l1, b, l2, u', w, r1, r2, r3⟩ := flatMap_split f l [] x v (by simpa using e2.symm)
        exact ⟨a :: l1, b, l2, u', w, by rw [r1]; rfl, by
          rw [List.append_nil] at e1
          rw [List.flatMap_cons, List.append_assoc, ← r2, List.append_nil, e1], r3⟩
      | cons y c =>
        rw [List.cons_append] at e2
        injection e2 with e2 _
        exact ⟨[], a, l, u, c, rfl, rfl, by rw [e1, e2]⟩

/-- What C++ guarantees about the base classes named in class statements, and what is assumed of the configuration: a base class has one
definition, a name, and a type name of its own; it is not of a type that pybind11 converts itself, and no binder for a namespace replaces
its binding. -/
structure BasesPlain (U : TransUnit) : Prop where
  one : ∀ i j k, ListedBase U.E i j → .cls k ∈ considered U →
    classQualifiedName U.E (U.E.cls k) = classQualifiedName U.E (U.E.cls j) ∨ typeNameOfRecord U.E k = typeNameOfRecord U.E j → k = j
  enum : ∀ i j k, ListedBase U.E i j → typeNameOfEnum U.E k ≠ typeNameOfRecord U.E j
  base : ∀ i j, ListedBase U.E i j → (U.E.cls j).isAnonymous = false ∧ ((U.E.cls j).isComplete = true ∨ (U.E.cls j).targs.isSome = true)
  conv : ∀ i j, ListedBase U.E i j → builtinDecl U.E (U.E.cls j).qname = false
  ns : ∀ i j, ListedBase U.E i j → U.E.cfg.binderForNamespaces (namespaceOf U.E (.cls j)) = none

theorem RunDone.bound_eq {U : TransUnit} {o : Opts} {fs fs' fs1 fs2 : FS} {st : BindState} {bs : List SortItem} {files : List OutFile}
    (h : RunDone U o fs fs' st bs files fs1 fs2) (hn : U.visits.length + 1 < 2 ^ 32) :
    (files.map (sourceOf U o)).flatMap Source.bound = (expected U.E.cfg bs).map (Binder.visitOf U) := by
  have hn' : bs.length + 1 < 2 ^ 32 := by have := h.length; omega
  rw [← C31_emitted_once_in_order _ o bs hn' files h.gen, List.map_flatMap, List.flatMap_map]
  simp only [Binder.bound_eq]

/-- The binding of a base class stands before that of the class. -/
theorem RunDone.base_before {U : TransUnit} {o : Opts} {fs fs' fs1 fs2 : FS} {st : BindState} {bs : List SortItem} {files : List OutFile}
    (h : RunDone U o fs fs' st bs files fs1 fs2) (hn : U.visits.length + 1 < 2 ^ 32) (hwf : U.env.Wellfounded) (hp : BasesPlain U)
    {vs1 vs2 : List Visit} {i : Nat} (e1 : (files.map (sourceOf U o)).flatMap Source.bound = vs1 ++ .cls i :: vs2) (hreach : Reached U (.cls i))
    (hx : U.E.cfg.binders (stdName U.E (U.E.cls i).qname) = none) (ha : (U.E.cls i).isAnonymous = false) {j : Nat} (hj : ListedBase U.E i j) :
    .cls j ∈ vs1 := by
  rw [h.bound_eq hn] at e1
  obtain ⟨hone, henum, hbase, hconv, hns⟩ := hp
  obtain ⟨b1, b2, hs, m1, m2⟩ := List.map_eq_append_iff.1 e1
  obtain ⟨b, b3, rfl, hbv, _⟩ := List.map_eq_cons_iff.1 m2
  obtain ⟨l1, l2, rfl, hl1, hl2⟩ := List.filter_eq_append_iff.1 hs
  obtain ⟨l3, l4, rfl, hl3, hpb, _⟩ := List.filter_eq_cons_iff.1 hl2
  have hvb := h.visitOf (b := b) (by simp)
  rw [hbv] at hvb
  have hbi : builtinDecl U.E (U.E.cls i).qname = false := by
    cases hq : builtinDecl U.E (U.E.cls i).qname with
    | false => rfl
    | true => exact absurd hq hreach.allowed.notConverted
  have hreq := C61_bases_requested U.E ⟨hwf.bases, hwf.args, hwf.nested⟩ i j hbi hx ha hj (hbase i j hj).2
  have hneeds : Needs b (recOf U.E j) := by
    refine ⟨by rw [hvb.2.1]; rfl, ?_, hconv i j hj⟩
    unfold SortItem.deps
    rw [if_pos (by rw [Bool.and_eq_true] at hpb; simpa using hpb.1), hvb.2.1]
    exact List.mem_map_of_mem hreq.2
  obtain ⟨b', hb', C, hC, hCn⟩ := C29_bases_first _ _ h.sort (l1 ++ l3) l4 b (by simp) _ hneeds
  have hb'm : b' ∈ l1 ++ (l3 ++ b :: l4) := by
    rcases List.mem_append.1 hb' with h | h <;> simp [h]
  have hvb' := h.visitOf hb'm
  have hj' : Binder.visitOf U b' = .cls j := by
    rw [hvb'.2.1] at hC
    cases hv' : Binder.visitOf U b' with
    | fn F => rw [hv'] at hC; cases hC
    | enm k => rw [hv'] at hC; cases hC
    | cls k =>
      rw [hv'] at hC hvb'
      have hC' : recOf U.E k = C := Option.some.inj hC
      rw [← hC'] at hCn
      simp only [recOf] at hCn
      rw [hone i j k hj hvb'.1 (.inl hCn)]
  rw [hj'] at hvb'
  have hreach' : Reached U (.cls j) := by
    obtain ⟨p, q, hpq⟩ := List.append_of_mem hvb'.1
    refine .needed hreach hreq.1 ⟨p, q, hpq, rfl, ?_⟩ ⟨True.intro, hj.2.2.2, ?_⟩
    · intro x hx hn
      have hxc : x ∈ considered U := by rw [hpq]; simp [hx]
      have hnd : (considered U).Nodup := by
        have := firstOfName_nodup U.E (U.visits.filter U.offered)
        rw [← considered_eq] at this
        exact List.Pairwise.of_map _ (fun a b h e => h (by rw [e])) this
      cases x with
      | fn F => cases hn
      | enm k => exact henum i j k hj (Option.some.inj hn)
      | cls k =>
        have := hone i j k hj hxc (.inr (Option.some.inj hn))
        subst this
        rw [hpq, List.nodup_append] at hnd
        exact (List.nodup_cons.1 hnd.2.1).1 hx
    · intro hc
      have := hconv i j hj
      rw [Converted, this] at hc
      cases hc
  have hcode : b'.code ≠ [] := by rw [hvb'.2.2.1 hreach']; exact bindingOf_ne_nil hreach'
  have hkeep : (!b'.code.isEmpty && (U.E.cfg.binderForNamespaces b'.decl.ns).isNone) = true := by
    rw [hvb'.2.1, decl_ns, hns i j hj]
    cases hx : b'.code with
    | nil => exact absurd hx hcode
    | cons _ _ => rfl
  have hin : b' ∈ b1 := by
    rcases List.mem_append.1 hb' with h | h
    · rw [← hl1]; exact List.mem_filter.2 ⟨h, hkeep⟩
    · exact absurd hkeep (hl3 b' h)
  rw [← m1, ← hj']
  exact List.mem_map_of_mem hin

/-- C75, partial. When the module is imported, the base classes named in a class statement have been registered by statements before it.
Assumed: a base class has one definition, a name, and a type name of its own (C++ guarantees that); no base is of a type that pybind11
converts itself; no binder for a namespace replaces the binding of a base; the bases of nested classes are bound before them with the same
outermost class (see `C75_nested_false`). -/
theorem C75_bases_first_partial (U : TransUnit) (o : Opts) (fs fs' : FS) (hw : fs.WF) (hn : U.visits.length + 1 < 2 ^ 32) (hd : DistinctNames U o)
    (hwf : U.env.Wellfounded) (h : U.Ends o fs (.done fs')) (hp : BasesPlain U)
    (hnest : ∀ i a j b k, registers U.E (.cls i) = a ++ j :: b → j ≠ i → ListedBase U.E j k → k ∈ a) :
    ∃ srcs, Generated U o fs fs' srcs ∧ ∀ before i after, registered U.E srcs = before ++ i :: after →
      U.E.cfg.binders (stdName U.E (U.E.cls i).qname) = none → (U.E.cls i).isAnonymous = false →
      ∀ j, ListedBase U.E i j → j ∈ before := by
  obtain ⟨st, bs, files, fs1, fs2, h⟩ := ends_done h
  have hg := generated_of_done h hw hn hd
  refine ⟨_, hg, ?_⟩
  intro before i after he hx ha j hj
  obtain ⟨vs1, v, vs2, u', w, e1, e2, hi⟩ := flatMap_split _ _ _ _ _ he
  cases v with
  | fn F => exact absurd (congrArg List.length hi) (by simp [registers])
  | enm k => exact absurd (congrArg List.length hi) (by simp [registers])
  | cls k =>
    rw [e2, List.mem_append]
    by_cases hk : i = k
    · subst hk
      have hreach : Reached U (.cls i) := ((hg.exactly _).1 (by rw [e1]; simp)).1
      left
      rw [List.mem_flatMap]
      exact ⟨.cls j, h.base_before hn hwf hp e1 hreach hx ha hj, registers_self (hp.conv i j hj) (hp.base i j hj).1⟩
    · exact .inr (hnest k u' i w j hi hk hj)

theorem Ex.unit_listed {i j : Nat} (h : ListedBase Ex.unit.E i j) : i = 0 ∧ j = 1 := by
  obtain ⟨⟨b, hb, _, hr⟩, _⟩ := h
  match i, hb with
  | 0, hb =>
    cases List.mem_singleton.1 (show b ∈ [⟨.pub, false, some 1⟩] from hb)
    cases hr
    exact ⟨rfl, rfl⟩
  | 1, hb => cases hb
  | 2, hb => cases hb
  | 3, hb => cases hb
  | n + 4, hb => cases hb

theorem Ex.unit_basesPlain : BasesPlain Ex.unit where
  one := by
    intro i j k h hk
    obtain ⟨rfl, rfl⟩ := Ex.unit_listed h
    have key : ∀ k < 4, classQualifiedName Ex.unit.E (Ex.unit.E.cls k) = classQualifiedName Ex.unit.E (Ex.unit.E.cls 1) ∨
        typeNameOfRecord Ex.unit.E k = typeNameOfRecord Ex.unit.E 1 → k = 1 := by decide +kernel
    refine key k ?_
    rw [Ex.unit_considered] at hk
    simp at hk
    omega
  enum := by
    intro i j k h
    obtain ⟨rfl, rfl⟩ := Ex.unit_listed h
    have : typeNameOfEnum Ex.unit.E k = typeNameOfEnum Ex.unit.E 0 := by
      unfold typeNameOfEnum stdTy
      have h1 : Ex.unit.E.tyName (.enum k) = Ex.unit.E.tyName (.enum 0) := rfl
      have h2 : Ex.unit.E.tyName (Ty.enum k).canon = Ex.unit.E.tyName (Ty.enum 0).canon := rfl
      rw [h1, h2]
    rw [this]
    decide +kernel
  base := by intro i j h; obtain ⟨rfl, rfl⟩ := Ex.unit_listed h; exact ⟨rfl, .inl rfl⟩
  conv := by intro i j h; obtain ⟨rfl, rfl⟩ := Ex.unit_listed h; decide +kernel
  ns := by intro i j _; rfl

theorem Ex.unit_nested (i : Nat) : nestedBound Ex.unit.E (Ex.unit.E.cls i) = [] := by
  have : ∀ i, (Ex.unit.E.cls i).members = [] := by
    intro i
    match i with
    | 0 | 1 | 2 | 3 => rfl
    | n + 4 => rfl
  simp [nestedBound, Env.nestedClasses, this]

/-- The hypotheses of `C75_bases_first_partial` are met by the example program, where `n::B` is a base of `n::A`. -/
example : ListedBase Ex.unit.E 0 1 ∧ BasesPlain Ex.unit ∧
    (∀ i a j b k, registers Ex.unit.E (.cls i) = a ++ j :: b → j ≠ i → ListedBase Ex.unit.E j k → k ∈ a) := by
  refine ⟨(mem_boundBases _ _ _).1 (by decide +kernel), Ex.unit_basesPlain, ?_⟩
  intro i a j b k h hj _
  have hm : j ∈ registers Ex.unit.E (.cls i) := by rw [h]; simp
  rcases registersF_cases hm with rfl | ⟨k', hk⟩
  · exact absurd rfl hj
  · rw [Ex.unit_nested] at hk; cases hk

/-- C75 fails for nested classes with bases: `Base` is moved behind `O` when `X<D>` is moved behind `D`, because the dependencies of nested
classes are not known. The statement for `O::N` names `Base`, which is registered only afterwards: the module cannot be imported. -/
theorem C75_nested_false : Ex.nestedOrder.env.Wellfounded ∧ ListedBase Ex.nestedOrder.E 4 1 ∧
    ∃ fs', Ex.nestedOrder.Ends (Ex.opts 1000) Ex.fsEmpty (.done fs') ∧ ∃ a b c, fs'.files c!"out/a.cpp" = some (a ++
      c!"\t\t\tpybind11::class_<O::N, std::shared_ptr<O::N>, Base> cl(enclosing_class, \"N\", \"\");\n" ++ b ++
      c!"\t\tpybind11::class_<Base, std::shared_ptr<Base>> cl(M(\"\"), \"Base\", \"\");\n" ++ c) ∧
      ¬ c!"class_<Base," <:+: a := by
  let a : Str := (c!"#include <a.h>\n#include <sstream> // __str__\n\n#include <functional>\n" ++
    c!"#include <pybind11/pybind11.h>\n#include <string>\n\n#ifndef BINDER_PYBIND11_TYPE_CASTER\n\t#define BINDER_PYBIND11_TYPE_CASTER\n" ++
    c!"\tPYBIND11_DECLARE_HOLDER_TYPE(T, std::shared_ptr<T>, false)\n\tPYBIND11_DECLARE_HOLDER_TYPE(T, T*, false)\n" ++
    c!"\tPYBIND11_MAKE_OPAQUE(std::shared_ptr<void>)\n#endif\n\n" ++
    c!"void bind_a(std::function< pybind11::module &(std::string const &namespace_) > &M)\n{\n" ++
    c!"\t{ // D file:a.h line:2\n\t\tpybind11::class_<D, std::shared_ptr<D>> cl(M(\"\"), \"D\", \"\");\n" ++
    c!"\t\tcl.def( pybind11::init( [](){ return new D(); } ) );\n\t}\n" ++
    c!"\t{ // O file:a.h line:2\n\t\tpybind11::class_<O, std::shared_ptr<O>> cl(M(\"\"), \"O\", \"\");\n" ++
    c!"\t\tcl.def( pybind11::init( [](){ return new O(); } ) );\n\n\t\t{ // O::N file:a.h line:2\n\t\t\tauto & enclosing_class = cl;\n")
  let b : Str := (c!"\t\t\tcl.def( pybind11::init( [](){ return new O::N(); } ) );\n\t\t}\n\n\t}\n" ++
    c!"\t{ // X file:a.h line:2\n\t\tpybind11::class_<X<D>, std::shared_ptr<X<D>>, D> cl(M(\"\"), \"X_D_t\", \"\");\n" ++
    c!"\t\tcl.def( pybind11::init( [](){ return new X<D>(); } ) );\n\t}\n\t{ // Base file:a.h line:2\n")
  let c : Str := c!"\t\tcl.def( pybind11::init( [](){ return new Base(); } ) );\n\t}\n}\n"
  obtain ⟨fs', h, h2⟩ : ∃ fs', Ex.nestedOrder.Ends (Ex.opts 1000) Ex.fsEmpty (.done fs') ∧
      (fun fs' => fs'.files c!"out/a.cpp" == some (a ++
        c!"\t\t\tpybind11::class_<O::N, std::shared_ptr<O::N>, Base> cl(enclosing_class, \"N\", \"\");\n" ++ b ++
        c!"\t\tpybind11::class_<Base, std::shared_ptr<Base>> cl(M(\"\"), \"Base\", \"\");\n" ++ c)) fs' = true :=
    Ex.ends_after (n := 20) (by decide +kernel)
  exact ⟨Ex.nestedOrder_wellfounded, (mem_boundBases _ _ _).1 (by decide +kernel), fs', h, a, b, c, beq_iff_eq.1 h2, by decide +kernel⟩

/-! ## C76: the headers -/

theorem Spec.Asked.mono {E : Env} {r r' : Node → Nat → Prop} (hr : ∀ d l, r d l → r' d l) {d : Node} {l : Nat} (h : Asked E r d l) :
    Asked E r' d l := by
  induction h with
  | root h => exact .root (hr _ _ h)
  | step _ h ih => exact .step ih h

theorem decl_includes (U : TransUnit) (v : Visit) : (U.decl v).includes = includesOf U.E U.depth (visitSteps U.E v) := by
  cases v <;> rfl

/-- C76. Every generated source includes, for each declaration bound in it, the headers of all the declarations that its binding asks for
(`Asked`, see C54: the declaration, the types of its signature, ...), except those the user excluded. -/
theorem C76_headers (U : TransUnit) (o : Opts) (fs fs' : FS) (hw : fs.WF) (hn : U.visits.length + 1 < 2 ^ 32) (hd : DistinctNames U o)
    (hwf : U.env.Wellfounded) (hdeep : U.Deep) (h : U.Ends o fs (.done fs')) :
    ∃ srcs, Generated U o fs fs' srcs ∧ ∀ s ∈ srcs, ∃ (lines : List Str) (rest : Str), s.head = lines.flatMap (fun x => c!"#include " ++ x ++ c!"\n") ++ rest ∧
      ∀ v ∈ s.bound, ∀ root, (root = nodeOf v ∨ ∃ i j, v = .cls i ∧ InnerOf U.E i j ∧ root = .cls j) →
        ∀ d l, Asked U.E (fun d l => d = root ∧ l = 0) d l → ∀ x, Brings U.E d x →
          (∀ e ∈ U.E.cfg.includesToSkip, ¬ e <+: x) → x ∈ lines := by
  obtain ⟨st, bs, files, fs1, fs2, h⟩ := ends_done h
  have hn' : bs.length + 1 < 2 ^ 32 := by have := h.length; omega
  refine ⟨_, generated_of_done h hw hn hd, ?_⟩
  intro s hs
  obtain ⟨F, hF, rfl⟩ := List.mem_map.1 hs
  obtain ⟨lines, e, _, _, hl⟩ := C11_include_block U.E.cfg F.includes
  refine ⟨lines, moduleHeader U.E.cfg o.stl, by rw [sourceOf, e], ?_⟩
  intro v hv root hroot d l ha x hx hskip
  rw [hl]
  refine ⟨?_, hskip⟩
  rw [bound_eq] at hv
  obtain ⟨b, hb, rfl⟩ := List.mem_map.1 hv
  obtain ⟨hm, _, _⟩ := h.decls_mem hn' hF hb
  have hvb := h.visitOf hm
  refine (C31_text_of_file _ o bs hn' files h.gen F hF b hb).2.2.2.2 x ?_
  rw [hvb.2.1, decl_includes, includesOf]
  have hvis : visitOf U b ∈ U.visits := (considered_offered hvb.1).1
  have := hdeep _ hvis
  cases hc : collectF U.E U.depth [] (visitSteps U.E (visitOf U b)) with
  | none => rw [hc] at this; cases this
  | some r =>
    simp only
    rw [(C54_exact U.E _ _ _ _ hc).1]
    refine .inr (.inr ⟨d, l, ha.mono ?_, hx⟩)
    rintro d l ⟨rfl, rfl⟩
    rcases hroot with rfl | ⟨i, j, e, hij, rfl⟩
    · cases visitOf U b with
      | fn F => simp [visitSteps, functionBinderSteps, nodeOf]
      | enm i => simp [visitSteps, enumBinderSteps, nodeOf]
      | cls i =>
        exact classBinderSteps_inner U.E ⟨hwf.bases, hwf.args, hwf.nested⟩ .refl _ _ (Nat.lt_succ_self _)
    · rw [e]
      exact classBinderSteps_inner U.E ⟨hwf.bases, hwf.args, hwf.nested⟩ hij _ _ (Nat.lt_succ_self _)

/-- The fuel of the example program suffices. -/
example : Ex.unit.Deep := by
  intro v hv
  simp only [Ex.unit, List.mem_cons, List.not_mem_nil, or_false] at hv
  rcases hv with rfl | rfl | rfl | rfl | rfl <;> decide +kernel

end Binder
