import Verif.Lemmas.ImportText
import Verif.Lemmas.ImportFail
import Verif.Lemmas.ImportExample
import Verif.Lemmas.ModuleTable

/-!
# C81: the generated module can be imported
-/

namespace Binder

open Cxx Spec

/-- C81. The calls of pybind11 in a generated function are those of the specification, in order. -/
theorem C81_calls (U : TransUnit) (o : Opts) (fs fs' : FS) (srcs : List Source) (h : Generated U o fs fs' srcs) :
    ∀ s ∈ srcs, Block (s.stmts.flatMap (Stmt.ops U.E)) (s.stmts.flatMap (Stmt.text U.E)) := by
  intro s hs
  refine block_flatMap _ _ _ ?_
  intro st hst
  cases st with
  | calls f ns => exact .call ⟨f, by simp [Stmt.text, Scope.text]⟩
  | traces n t =>
    refine .gap (.inr (.inr (.inr (.inr (.inr (.inr (.inr ⟨c!"\"B" ++ natStr n ++ c!"_[" ++ t ++ c!"]\" << std::endl", ?_⟩)))))))
    simp [Stmt.text]
  | binds v =>
    have hb : v ∈ srcs.flatMap Source.bound := by
      rw [← bound_stmts]
      exact List.mem_filterMap.2 ⟨.binds v, List.mem_flatMap.2 ⟨s, hs, hst⟩, rfl⟩
    have hr := ((h.exactly v).1 hb).1
    cases v with
    | fn F => exact block_function U.E F ((offered_iff U _).1 (considered_offered hr.considered).2).1
    | enm i => exact block_enum U.E i
    | cls i => exact block_class U.E _ _ i

/-- C81, partial. The module can be imported: no call fails. Assumed, apart from what C75 assumes: no C++ type is bound by two declarations
(`OneDefinition`); no binder of the user is configured for a member class; names that become Python names in the same scope do not clash,
and Python finds a search order for every class (`Compatible`); the sources compile, and the functions of the user succeed. -/
theorem C81_import_partial (U : TransUnit) (o : Opts) (fs fs' : FS) (hw : fs.WF) (hn : U.visits.length + 1 < 2 ^ 32) (hd : DistinctNames U o)
    (hwf : U.env.Wellfounded) (h : U.Ends o fs (.done fs')) (hp : BasesPlain U)
    (hnest : ∀ i a j b k, registers U.E (.cls i) = a ++ j :: b → j ≠ i → ListedBase U.E j k → k ∈ a)
    (hone : OneDefinition U) (hmem : MembersPlain U) (hanon : ∀ i, Reached U (.cls i) → (U.E.cls i).isAnonymous = false)
    (hns : ∀ v, Reached U v → ¬ c!"::" <+: namespaceOf U.E v)
    (lin : Str → List Str) (hc : Compatible (fun op => ∃ v, Reached U v ∧ op ∈ opsOf U.E v) (HasModule U) lin) :
    ∃ srcs pairs root, Generated U o fs fs' srcs ∧ fs'.files (rootPath o) = some root ∧ (MakesModules root pairs ∧ ModuleTable U pairs) ∧
      ∃ p, importModule pairs (importOps U.E srcs) = some p := by
  obtain ⟨st, bs, files, fs1, fs2, h⟩ := ends_done h
  have hg := generated_of_done h hw hn hd
  have hitem : ∀ b ∈ bs, b.code ≠ [] → ∃ v, Reached U v ∧ b.decl.ns = namespaceOf U.E v := by
    intro b hb hcode
    exact ⟨_, h.reached hb hcode, by rw [(h.visitOf hb).2.1, decl_ns]⟩
  have hns' : ∀ b ∈ bs, b.code ≠ [] → ¬ c!"::" <+: b.decl.ns := by
    intro b hb hcode
    obtain ⟨v, hr, e⟩ := hitem b hb hcode
    rw [e]; exact hns v hr
  have hroot := (congrArg (fun x : FS => x.files (rootPath o)) h.finish).trans (by rw [finishRun_root])
  refine ⟨_, subModules (allNestedNamespaces bs), _, hg, hroot, ?_, ?_⟩
  · exact ⟨(makesModules_root U.E.cfg o (allNestedNamespaces bs) files).right _, h.table hns⟩
  · have hcreate := createModules_all hns'
    obtain ⟨p0, e0, m0, t0, a0⟩ := makeModules_of_create (p := ⟨[[]], [], []⟩) hcreate (fun n => Iff.rfl)
    have hafter : After ([] :: allNestedNamespaces bs) (HasModule U) lin [] p0 := by
      refine ⟨m0, ?_, ?_, ?_⟩
      · intro q; rw [t0]; simp [knownTypes]
      · intro q l hl; rw [t0] at hl; simp at hl
      · intro k kind hk
        rcases a0 k kind hk with h' | ⟨rfl, x, hx, e⟩
        · cases h'
        · refine .inr ⟨rfl, x, ?_, e⟩
          obtain ⟨n, hn, rfl⟩ := List.mem_map.1 hx
          obtain ⟨b, hb, hcode, ha⟩ := mem_allNested.1 (List.mem_filter.1 hn).1
          obtain ⟨v, hr, ens⟩ := hitem b hb hcode
          rw [ens] at ha
          refine ⟨v, hr, ?_⟩
          simp only [base_last_full (not_colons_of_prefix (ancestors_prefix ha) (hns v hr))]
          exact ancestors_boundary ha
    obtain ⟨p, e, _⟩ := hafter.all hc.withCalls (importOps U.E (files.map (sourceOf U o))) (by simp) (by
      intro op hop
      rw [importOps_eq] at hop
      obtain ⟨s, hs, hop⟩ := List.mem_flatMap.1 hop
      cases s with
      | traces n t => cases hop
      | calls f ns => exact .inr ⟨_, List.mem_singleton.1 hop⟩
      | binds v =>
        refine .inl ⟨v, ((hg.exactly v).1 ?_).1, hop⟩
        rw [← bound_stmts]
        exact List.mem_filterMap.2 ⟨.binds v, hs, rfl⟩) (by
      intro a op b e
      exact h.readyOp hn hwf hg hp hnest hone hmem hanon e)
    exact ⟨p, by rw [importModule, e0]; exact e⟩

theorem Ex.unit_visits {v : Visit} (h : Reached Ex.unit v) : v ∈ Ex.unit.visits := (considered_offered h.considered).1

/-- The hypotheses of `C81_import_partial` are met by the example program (see also C69, C75 for the others). -/
theorem Ex.unit_importable : OneDefinition Ex.unit ∧ MembersPlain Ex.unit ∧ (∀ i, Reached Ex.unit (.cls i) → (Ex.unit.E.cls i).isAnonymous = false) ∧
    (∀ v, Reached Ex.unit v → ¬ c!"::" <+: namespaceOf Ex.unit.E v) ∧
    Compatible (fun op => ∃ v, Reached Ex.unit v ∧ op ∈ opsOf Ex.unit.E v) (HasModule Ex.unit)
      (fun q => if q = c!"n::A" then [c!"n::A", c!"n::B"] else [q]) := by
  have hns : ∀ v ∈ Ex.unit.visits, namespaceOf Ex.unit.E v ∈ [c!"n", c!"m"] := by decide +kernel
  refine ⟨⟨?_, ?_⟩, ⟨?_, ?_⟩, ?_, ?_, ?_⟩
  · intro v hv
    have : ∀ v ∈ Ex.unit.visits, ((opsOf Ex.unit.E v).filterMap Op.type?).Nodup := by decide +kernel
    exact this v (Ex.unit_visits hv)
  · intro v w q hv hw
    have : ∀ v ∈ Ex.unit.visits, ∀ w ∈ Ex.unit.visits, ∀ q ∈ (opsOf Ex.unit.E v).filterMap Op.type?,
        q ∈ (opsOf Ex.unit.E w).filterMap Op.type? → v = w := by decide +kernel
    exact this v (Ex.unit_visits hv) w (Ex.unit_visits hw) q
  · intro i j hj; rw [Ex.unit_nested] at hj; cases hj
  · intro i j hj; rw [Ex.unit_nested] at hj; cases hj
  · intro i _
    match i with
    | 0 | 1 | 2 | 3 => rfl
    | n + 4 => rfl
  · intro v hv h
    have := hns v (Ex.unit_visits hv)
    simp only [List.mem_cons, List.not_mem_nil, or_false] at this
    rcases this with e | e <;> rw [e] at h <;> revert h <;> decide
  · refine compatible_of_list (ops := Ex.unit.visits.flatMap (opsOf Ex.unit.E)) (pairs := [c!"n", c!"m"].map fun n => ([], n)) ?_ ?_ (by decide +kernel)
    · rintro op ⟨v, hv, hop⟩
      exact List.mem_flatMap.2 ⟨v, Ex.unit_visits hv, hop⟩
    · intro x hx
      exact hasModule_single (fun v hv => hns v (Ex.unit_visits hv)) (by decide) hx

/-! ## What an import needs -/

/-- C81. The conditions are needed. If the module can be imported, whatever the order of the calls is, then no class or enumeration shares its
name with a function of the same namespace; the functions that share a name in a class are all static or all not, unless something else has the
name as well; no type is bound twice; there is a search order for every class; and the root module makes the modules of all calls. -/
theorem C81_needed (pairs : List (Str × Str)) (ops : List Op) (p : Py) (h : importModule pairs ops = some p) :
    (∀ a ∈ ops, ∀ ns n, a.typeName? = some (.module ns, n) → n.head? ≠ some '_' → ∀ m, .function (.module ns) n m ∉ ops) ∧
    (∀ s n, (∀ op ∈ ops, ((s, n), .object) ∉ op.binds) → .function s n true ∈ ops → .function s n false ∉ ops) ∧
    (ops.filterMap Op.type?).Nodup ∧
    (∃ lin : Str → List Str, ∀ a ∈ ops, ∀ q, a.type? = some q → linearize lin q a.bases = some (lin q)) ∧
    ∀ a ∈ ops, ∀ ns, a.scope = .module ns → ns = [] ∨ ∃ x ∈ pairs, ns = if x.1 = [] then x.2 else x.1 ++ c!"::" ++ x.2 := by
  obtain ⟨p0, h0, h⟩ := importModule_some h
  refine ⟨?_, ?_, types_once ops h, ⟨p.order, orders_exist ops h⟩, ?_⟩
  · intro a ha ns n hk hn
    exact no_clash ops h hn a ha hk
  · intro s n hno
    exact no_mix ops h hno
  · intro a ha ns hs
    rcases makeModules_modules h0 ns (modules_exist ops h a ha ns hs) with h' | h'
    · exact .inl (List.mem_singleton.1 h')
    · exact .inr h'

/-- The calls for what is bound are made. -/
theorem ops_made {U : TransUnit} {o : Opts} {fs fs' : FS} {srcs : List Source} (h : Generated U o fs fs' srcs) {v : Visit} (hr : Reached U v)
    (hns : U.E.cfg.binderForNamespaces (namespaceOf U.E v) = none) {op : Op} (hop : op ∈ opsOf U.E v) : op ∈ importOps U.E srcs := by
  have := (h.exactly v).2 ⟨hr, hns⟩
  rw [← bound_stmts] at this
  obtain ⟨st, hst, e⟩ := List.mem_filterMap.1 this
  rw [importOps_eq]
  refine List.mem_flatMap.2 ⟨st, hst, ?_⟩
  cases st <;> cases e
  exact hop

/-- C81 fails if a class and a function have the same name, which C++ allows: "an object with that name is already defined" or "Cannot overload
existing non-function object". -/
theorem C81_same_name_false : ∃ fs', Ex.sameName.Ends (Ex.opts 1000) Ex.fsEmpty (.done fs') ∧
    ∀ srcs pairs, Generated Ex.sameName (Ex.opts 1000) Ex.fsEmpty fs' srcs → importModule pairs (importOps Ex.sameName.E srcs) = none := by
  obtain ⟨fs', h, _⟩ : ∃ fs', Ex.sameName.Ends (Ex.opts 1000) Ex.fsEmpty (.done fs') ∧ (fun _ => true) fs' = true := Ex.ends_after (n := 20) (by decide +kernel)
  refine ⟨fs', h, ?_⟩
  intro srcs pairs hg
  have hc : Reached Ex.sameName (.cls 0) := by
    refine Ex.asked (by decide +kernel) True.intro (by decide +kernel) ?_ rfl (by decide +kernel)
    unfold Converted; decide +kernel
  have hf : Reached Ex.sameName (.fn { exampleMethod c!"f" false (.basic 0) [] with qname := c!"n::f", incl := c!"<n.h>", method := none }) := by
    refine Ex.asked (by decide +kernel) True.intro (by decide +kernel) ?_ rfl (by decide +kernel)
    unfold Converted; decide +kernel
  have m1 : Op.class_ (.module c!"n") c!"f" c!"n::f" [] ∈ importOps Ex.sameName.E srcs := ops_made hg hc rfl (by decide +kernel)
  have m2 : Op.function (.module c!"n") c!"f" false ∈ importOps Ex.sameName.E srcs := ops_made hg hf rfl (by decide +kernel)
  cases e : importModule pairs (importOps Ex.sameName.E srcs) with
  | none => rfl
  | some p => exact absurd m2 ((C81_needed _ _ _ e).1 _ m1 c!"n" c!"f" rfl (by decide) false)

/-- C81 fails if a class has a static and another function of the same name, which C++ allows: "overloading a method with both static and
instance methods is not supported". -/
theorem C81_static_false : ∃ fs', Ex.mixed.Ends (Ex.opts 1000) Ex.fsEmpty (.done fs') ∧
    ∀ srcs pairs, Generated Ex.mixed (Ex.opts 1000) Ex.fsEmpty fs' srcs → importModule pairs (importOps Ex.mixed.E srcs) = none := by
  obtain ⟨fs', h, _⟩ : ∃ fs', Ex.mixed.Ends (Ex.opts 1000) Ex.fsEmpty (.done fs') ∧ (fun _ => true) fs' = true := Ex.ends_after (n := 20) (by decide +kernel)
  refine ⟨fs', h, ?_⟩
  intro srcs pairs hg
  have hc : Reached Ex.mixed (.cls 0) := by
    refine Ex.asked (by decide +kernel) True.intro (by decide +kernel) ?_ rfl (by decide +kernel)
    unfold Converted; decide +kernel
  have m1 : Op.function (.type c!"A") c!"f" true ∈ importOps Ex.mixed.E srcs := ops_made hg hc rfl (by decide +kernel)
  have m2 : Op.function (.type c!"A") c!"f" false ∈ importOps Ex.mixed.E srcs := ops_made hg hc rfl (by decide +kernel)
  cases e : importModule pairs (importOps Ex.mixed.E srcs) with
  | none => rfl
  | some p =>
    refine absurd m2 ((C81_needed _ _ _ e).2.1 (.type c!"A") c!"f" ?_ m1)
    intro op hop
    rw [importOps_eq] at hop
    obtain ⟨st, hst, hop⟩ := List.mem_flatMap.1 hop
    cases st with
    | traces n t => cases hop
    | calls f ns => rw [List.mem_singleton.1 hop]; simp [Op.binds]
    | binds v =>
      have hb : v ∈ srcs.flatMap Source.bound := by
        rw [← bound_stmts]
        exact List.mem_filterMap.2 ⟨.binds v, hst, rfl⟩
      have hv := List.mem_singleton.1 (show v ∈ [.cls 0] from (considered_offered ((hg.exactly v).1 hb).1.considered).1)
      subst hv
      have : ∀ op ∈ opsOf Ex.mixed.E (.cls 0), ((Scope.type c!"A", c!"f"), Kind.object) ∉ op.binds := by decide +kernel
      exact this op hop

/-- C81 fails if a class lists a base before a class that is derived from it, which C++ allows for virtual bases: "Cannot create a consistent
method resolution order". -/
theorem C81_diamond_false : ∃ fs', Ex.diamond.Ends (Ex.opts 1000) Ex.fsEmpty (.done fs') ∧
    ∀ srcs pairs, Generated Ex.diamond (Ex.opts 1000) Ex.fsEmpty fs' srcs → importModule pairs (importOps Ex.diamond.E srcs) = none := by
  obtain ⟨fs', h, _⟩ : ∃ fs', Ex.diamond.Ends (Ex.opts 1000) Ex.fsEmpty (.done fs') ∧ (fun _ => true) fs' = true := Ex.ends_after (n := 20) (by decide +kernel)
  refine ⟨fs', h, ?_⟩
  intro srcs pairs hg
  have hc : ∀ i < 3, Reached Ex.diamond (.cls i) := by
    have h1 : ∀ i < 3, Visit.cls i ∈ firstOfName Ex.diamond.E (Ex.diamond.visits.filter Ex.diamond.offered) := by decide +kernel
    have h2 : ∀ i < 3, (match skipQuery Ex.diamond.E (.cls i) with | .ok false => true | _ => false) = true := by decide +kernel
    have h3 : ∀ i < 3, builtinDecl Ex.diamond.E (Ex.diamond.E.cls i).qname = false := by decide +kernel
    have h4 : ∀ i < 3, saysYes (bindQuery Ex.diamond.E (.cls i)) = true := by decide +kernel
    intro i hi
    refine Ex.asked (h1 i hi) True.intro (h2 i hi) ?_ rfl (h4 i hi)
    rw [Converted, h3 i hi]
    simp
  have m1 : Op.class_ (.module []) c!"A" c!"A" [] ∈ importOps Ex.diamond.E srcs := ops_made hg (hc 0 (by decide)) rfl (by decide +kernel)
  have m2 : Op.class_ (.module []) c!"B" c!"B" [c!"A"] ∈ importOps Ex.diamond.E srcs := ops_made hg (hc 1 (by decide)) rfl (by decide +kernel)
  have m3 : Op.class_ (.module []) c!"D" c!"D" [c!"A", c!"B"] ∈ importOps Ex.diamond.E srcs := ops_made hg (hc 2 (by decide)) rfl (by decide +kernel)
  cases e : importModule pairs (importOps Ex.diamond.E srcs) with
  | none => rfl
  | some p =>
    obtain ⟨_, _, _, ⟨lin, hlin⟩, _⟩ := C81_needed _ _ _ e
    have e1 : lin c!"A" = [c!"A"] := (Option.some.inj (hlin _ m1 c!"A" rfl)).symm
    have e2 : lin c!"B" = [c!"B", c!"A"] := by
      have := hlin _ m2 c!"B" rfl
      simp only [Op.bases, Spec.linearize, List.map_cons, List.map_nil, e1] at this
      exact (Option.some.inj this).symm
    have e3 := hlin _ m3 c!"D" rfl
    simp only [Op.bases, Spec.linearize, List.map_cons, List.map_nil, e1, e2] at e3
    cases e3

/-- C81 fails for a binder of the user for a member class: the module looked up is that of the enclosing class, which the root module does not
make ("Attempt to access pybind11::module for namespace A before it was created!!!"). -/
theorem C81_member_binder_false : ∃ fs', Ex.memberBinder.Ends (Ex.opts 1000) Ex.fsEmpty (.done fs') ∧
    ∀ srcs pairs, Generated Ex.memberBinder (Ex.opts 1000) Ex.fsEmpty fs' srcs → (∀ x ∈ pairs, HasModule Ex.memberBinder x) →
      importModule pairs (importOps Ex.memberBinder.E srcs) = none := by
  obtain ⟨fs', h, _⟩ : ∃ fs', Ex.memberBinder.Ends (Ex.opts 1000) Ex.fsEmpty (.done fs') ∧ (fun _ => true) fs' = true := Ex.ends_after (n := 20) (by decide +kernel)
  refine ⟨fs', h, ?_⟩
  intro srcs pairs hg hpairs
  have hc : Reached Ex.memberBinder (.cls 0) := by
    refine Ex.asked (by decide +kernel) True.intro (by decide +kernel) ?_ rfl (by decide +kernel)
    unfold Converted; decide +kernel
  have m1 : Op.binder c!"A" c!"A::N" ∈ importOps Ex.memberBinder.E srcs := ops_made hg hc rfl (by decide +kernel)
  cases e : importModule pairs (importOps Ex.memberBinder.E srcs) with
  | none => rfl
  | some p =>
    rcases (C81_needed _ _ _ e).2.2.2.2 _ m1 c!"A" rfl with h' | ⟨x, hx, h'⟩
    · cases h'
    · obtain ⟨v, hv, h''⟩ := hpairs x hx
      rw [← h'] at h''
      have hcon := (considered_eq Ex.memberBinder) ▸ hv.considered
      have hv0 : ∀ v ∈ firstOfName Ex.memberBinder.E (Ex.memberBinder.visits.filter Ex.memberBinder.offered), namespaceOf Ex.memberBinder.E v = [] := by
        decide +kernel
      rw [hv0 v hcon] at h''
      rcases h'' with h'' | h''
      · cases h''
      · simp at h''

end Binder
