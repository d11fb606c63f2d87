import Verif.Lemmas.Surface
import Verif.Props.Import

/-!
# C84: what the imported module offers
-/

namespace Binder

open Cxx Spec

theorem mem_importOps {U : TransUnit} {o : Opts} {fs fs' : FS} {srcs : List Source} (h : Generated U o fs fs' srcs) (op : Op)
    (hc : ∀ s, op ≠ .calls s) : op ∈ importOps U.E srcs ↔ Made U op := by
  constructor
  · intro hop
    rw [importOps_eq] at hop
    obtain ⟨s, hs, hop⟩ := List.mem_flatMap.1 hop
    cases s with
    | traces n t => cases hop
    | calls f ns => exact absurd (List.mem_singleton.1 hop) (hc _)
    | binds v =>
      have := (h.exactly v).1 (by rw [← bound_stmts]; exact List.mem_filterMap.2 ⟨.binds v, hs, rfl⟩)
      exact ⟨v, this.1, this.2, hop⟩
  · rintro ⟨v, hv, hb, hop⟩
    exact ops_made h hv hb hop

/-- C84. Names: a scope of the imported module has a name exactly if a bound declaration has it there, or it is the module of a namespace; and
the thing of that name is of the kind that one of them makes. -/
theorem C84_names (U : TransUnit) (o : Opts) (fs fs' : FS) (srcs : List Source) (hg : Generated U o fs fs' srcs) (pairs : List (Str × Str)) (p : Py)
    (h : importModule pairs (importOps U.E srcs) = some p) (s : Scope) (n : Str) :
    ((p.own s n).isSome = true ↔ (∃ op kind, Made U op ∧ ((s, n), kind) ∈ op.binds) ∨ ∃ x ∈ pairs, s = .module x.1 ∧ n = moduleName x.2) ∧
    (∀ kind, p.own s n = some kind → (∃ op, Made U op ∧ ((s, n), kind) ∈ op.binds) ∨
      (kind = .object ∧ ∃ x ∈ pairs, s = .module x.1 ∧ n = moduleName x.2)) := by
  obtain ⟨p0, h0, h1⟩ := importModule_some h
  have hbinds : ∀ (op : Op) (kind : Kind), ((s, n), kind) ∈ op.binds → ∀ s', op ≠ .calls s' := by rintro op kind hk s' rfl; cases hk
  obtain ⟨_, _, h3⟩ := makeModules_state h0
  have hmod : ∀ kind, p0.own s n = some kind → kind = .object ∧ ∃ x ∈ pairs, s = .module x.1 ∧ n = moduleName x.2 := by
    intro kind hk
    rcases h3 s n with ⟨e, hx⟩ | ⟨_, e⟩
    · rw [e] at hk; cases hk; exact ⟨rfl, hx⟩
    · rw [e] at hk; cases hk
  rcases execAll_own _ h1 s n with ⟨k, e, op, hop, hk⟩ | ⟨hno, e⟩
  · have hm := (mem_importOps hg op (hbinds op k hk)).1 hop
    refine ⟨⟨fun _ => .inl ⟨op, k, hm, hk⟩, fun _ => by rw [e]; rfl⟩, ?_⟩
    intro kind hkind
    rw [e] at hkind; cases hkind
    exact .inl ⟨op, hm, hk⟩
  · refine ⟨⟨?_, ?_⟩, ?_⟩
    · intro hs
      rw [e] at hs
      obtain ⟨kind, hk⟩ := Option.isSome_iff_exists.1 hs
      exact .inr (hmod kind hk).2
    · rintro (⟨op, kind, hm, hk⟩ | hx)
      · exact absurd hk (hno op ((mem_importOps hg op (hbinds op kind hk)).2 hm) kind)
      · rw [e]
        rcases h3 s n with ⟨e', _⟩ | ⟨hno', _⟩
        · rw [e']; rfl
        · obtain ⟨x, hx, hk⟩ := hx
          exact absurd hk (hno' x hx)
    · intro kind hk
      rw [e] at hk
      exact .inr (hmod kind hk)

/-- C84. Bound functions are there: in the module of their namespace stands a function, if nothing else has its name. -/
theorem C84_functions (U : TransUnit) (o : Opts) (fs fs' : FS) (srcs : List Source) (hg : Generated U o fs fs' srcs) (pairs : List (Str × Str)) (p : Py)
    (h : importModule pairs (importOps U.E srcs) = some p) (F : Func) (hF : Reached U (.fn F))
    (hb : U.E.cfg.binderForNamespaces (namespaceOf U.E (.fn F)) = none)
    (hobj : ∀ op, Made U op → ((.module (namespaceOf U.E (.fn F)), pythonFunctionName F), .object) ∉ op.binds)
    (hmod : ∀ x ∈ pairs, ¬ (namespaceOf U.E (.fn F) = x.1 ∧ pythonFunctionName F = moduleName x.2)) :
    ∃ m, p.own (.module (namespaceOf U.E (.fn F))) (pythonFunctionName F) = some (.func m) := by
  obtain ⟨h1, h2⟩ := C84_names U o fs fs' srcs hg pairs p h (.module (namespaceOf U.E (.fn F))) (pythonFunctionName F)
  have hm : Made U (.function (.module (namespaceOf U.E (.fn F))) (pythonFunctionName F) false) := by
    refine ⟨.fn F, hF, hb, ?_⟩
    unfold opsOf overloads
    rw [List.mem_map]
    refine ⟨F.params.length, ?_, rfl⟩
    have := firstArity_le F
    unfold arities
    rw [List.mem_range'_1]
    omega
  have := h1.2 (.inl ⟨_, .func false, hm, by simp [Op.binds]⟩)
  obtain ⟨k, hk⟩ := Option.isSome_iff_exists.1 this
  cases k with
  | func m => exact ⟨m, hk⟩
  | object =>
    rcases h2 _ hk with ⟨op, hop, hk⟩ | ⟨_, x, hx, e1, e2⟩
    · exact absurd hk (hobj op hop)
    · injection e1 with e1
      exact absurd ⟨e1, e2⟩ (hmod x hx)

/-- C84. Subclasses: for the Python classes, `issubclass` says what the declarations of the bound classes say about public inheritance. -/
theorem C84_subclass (U : TransUnit) (o : Opts) (fs fs' : FS) (srcs : List Source) (hg : Generated U o fs fs' srcs) (pairs : List (Str × Str)) (p : Py)
    (h : importModule pairs (importOps U.E srcs) = some p) (q r : Str) : p.isSubclass q r ↔ Derives U (ListedBase U.E) q r := by
  obtain ⟨p0, h0, h1⟩ := importModule_some h
  obtain ⟨ht, _, _⟩ := makeModules_state h0
  have hself : ∀ q, q ∈ p0.order q := by intro q; unfold Py.order; rw [ht]; simp
  unfold Py.isSubclass
  constructor
  · intro hr
    have := order_sub (P := (· ∈ importOps U.E srcs)) _ h1 (fun _ h => h) (by
      intro q r hr
      unfold Py.order at hr
      rw [ht] at hr
      rw [List.mem_singleton.1 (show r ∈ [q] from hr)]
      exact .refl _) q r hr
    clear hr
    induction this with
    | refl q => exact .refl q
    | @step op q b r hop hq hb _ ih =>
      have hc : ∀ s, op ≠ .calls s := by rintro s rfl; cases hq
      obtain ⟨v, hv, hbn, hop⟩ := (mem_importOps hg op hc).1 hop
      cases v with
      | fn F =>
        obtain ⟨_, _, rfl⟩ := List.mem_map.1 (show op ∈ overloads F _ _ from hop)
        cases hb
      | enm i =>
        rw [List.mem_singleton.1 (show op ∈ [_] from hop)] at hb
        cases hb
      | cls i =>
        obtain ⟨k, hk, hx, e, j, hj, rfl⟩ := classOps_bases U.E _ _ i op hop b hb
        have e := Option.some.inj (hq.symm.trans e)
        rw [e]
        exact .step ⟨⟨.cls i, hv, hbn, hk⟩, hx⟩ ((mem_boundBases _ _ _).1 hj) ih
  · intro hd
    refine sub_order h1 hself ?_
    induction hd with
    | refl q => exact .refl q
    | @step i j r hi hl _ ih =>
      obtain ⟨⟨v, hv, hbn, hreg⟩, hx⟩ := hi
      cases v with
      | fn F => exact absurd hreg (by simp [registers])
      | enm k => exact absurd hreg (by simp [registers])
      | cls k =>
        obtain ⟨s, name, hop⟩ := classOps_registers U.E _ (.type []) k i hreg hx
        exact .step ((mem_importOps hg _ (by simp)).2 ⟨.cls k, hv, hbn, hop⟩) rfl (List.mem_map_of_mem ((mem_boundBases _ _ _).2 hl)) ih

/-- C84. Members of bases: what a class has, the classes derived from it have too. -/
theorem C84_inherited (U : TransUnit) (o : Opts) (fs fs' : FS) (srcs : List Source) (hg : Generated U o fs fs' srcs) (pairs : List (Str × Str)) (p : Py)
    (h : importModule pairs (importOps U.E srcs) = some p) (q r : Str) (hd : Derives U (ListedBase U.E) q r) (op : Op) (hop : Made U op)
    (n : Str) (kind : Kind) (hn : ((.type r, n), kind) ∈ op.binds) : (p.find (.type q) n).isSome = true := by
  have h1 := (C84_names U o fs fs' srcs hg pairs p h (.type r) n).1.2 (.inl ⟨op, kind, hop, hn⟩)
  have h2 := (C84_subclass U o fs fs' srcs hg pairs p h q r).2 hd
  unfold Py.isSubclass Py.order at h2
  unfold Py.find
  rw [List.findSome?_isSome_iff]
  exact ⟨r, h2, h1⟩

/-- C84. Modules: there is one for every namespace of a bound declaration and for the namespaces around it, and no other. `path` gives the
parts of a namespace. -/
theorem C84_modules (U : TransUnit) (o : Opts) (fs fs' : FS) (hw : fs.WF) (hn : U.visits.length + 1 < 2 ^ 32) (hd : DistinctNames U o)
    (h : U.Ends o fs (.done fs')) (path : Visit → List Str)
    (hpath : ∀ v, Reached U v → namespaceOf U.E v = joinNs (path v) ∧ ∀ x ∈ path v, IsComponent x) :
    ∃ srcs pairs root, Generated U o fs fs' srcs ∧ fs'.files (rootPath o) = some root ∧ MakesModules root pairs ∧
      ∀ p, importModule pairs (importOps U.E srcs) = some p → ∀ n, n ∈ p.modules ↔ n = [] ∨ ∃ v, Reached U v ∧ AncestorOf (path v) n := by
  obtain ⟨st, bs, files, fs1, fs2, h⟩ := ends_done h
  have hroot := (congrArg (fun x : FS => x.files (rootPath o)) h.finish).trans (by rw [finishRun_root])
  refine ⟨_, subModules (allNestedNamespaces bs), _, generated_of_done h hw hn hd, hroot,
    (makesModules_root U.E.cfg o (allNestedNamespaces bs) files).right _, ?_⟩
  intro p hp n
  obtain ⟨p0, h0, h1⟩ := importModule_some hp
  obtain ⟨_, hm, _⟩ := makeModules_state h0
  have hitem : ∀ b ∈ bs, b.code ≠ [] → Reached U (visitOf U b) ∧ b.decl.ns = namespaceOf U.E (visitOf U b) := by
    intro b hb hc
    exact ⟨h.reached hb hc, by rw [(h.visitOf hb).2.1, decl_ns]⟩
  have hns : ∀ b ∈ bs, b.code ≠ [] → ¬ c!"::" <+: b.decl.ns := by
    intro b hb hc
    obtain ⟨hr, e⟩ := hitem b hb hc
    rw [e, (hpath _ hr).1]
    exact join_no_colons _ (hpath _ hr).2
  have hall := C38_namespaces bs (fun b => path (visitOf U b)) (fun b hb hc => by
    obtain ⟨hr, e⟩ := hitem b hb hc
    exact ⟨e.trans (hpath _ hr).1, (hpath _ hr).2⟩)
  rw [show p.modules = p0.modules from execAll_modules _ h1, hm]
  have hpairs : (∃ x ∈ subModules (allNestedNamespaces bs), n = if x.1 = [] then x.2 else x.1 ++ c!"::" ++ x.2) ↔ n ∈ allNestedNamespaces bs := by
    have hfull : ∀ m ∈ allNestedNamespaces bs, (if baseNamespace m = [] then lastNamespace m else baseNamespace m ++ c!"::" ++ lastNamespace m) = m := by
      intro m hm
      obtain ⟨b, hb, hc, ha⟩ := mem_allNested.1 hm
      exact base_last_full (not_colons_of_prefix (ancestors_prefix ha) (hns b hb hc))
    constructor
    · rintro ⟨x, hx, e⟩
      obtain ⟨m, hm, rfl⟩ := List.mem_map.1 hx
      have hm := (List.mem_filter.1 hm).1
      rw [e, hfull m hm]
      exact hm
    · intro hn'
      have hne : n ≠ [] := by
        obtain ⟨b, hb, hc, ha⟩ := mem_allNested.1 hn'
        exact ancestors_ne ha
      exact ⟨(baseNamespace n, lastNamespace n), List.mem_map.2 ⟨n, List.mem_filter.2 ⟨hn', by simpa using hne⟩, rfl⟩, (hfull n hn').symm⟩
  rw [hpairs, List.mem_singleton, hall]
  refine or_congr_right ⟨?_, ?_⟩
  · rintro ⟨b, hb, hc, ha⟩
    exact ⟨_, (hitem b hb hc).1, ha⟩
  · rintro ⟨v, hv, ha⟩
    obtain ⟨b, hb, e⟩ := h.item_of hv.considered
    have hvb := h.visitOf hb
    have e' : visitOf U b = v := considered_inj hvb.1 hv.considered (hvb.2.1.symm.trans e)
    rw [e'] at hvb
    exact ⟨b, hb, by rw [hvb.2.2.1 hv]; exact bindingOf_ne_nil hv, by rw [e']; exact ha⟩

/-! ## The program of the example -/

theorem Ex.unit_members (i : Nat) (a : List Nat) (j : Nat) (b : List Nat) (k : Nat) (h : registers Ex.unit.E (.cls i) = a ++ j :: b) (hj : j ≠ i)
    (_ : ListedBase Ex.unit.E j k) : k ∈ a := by
  have hm : j ∈ registers Ex.unit.E (.cls i) := by rw [h]; simp
  rcases registersF_cases hm with rfl | ⟨k', hk⟩
  · exact absurd rfl hj
  · rw [Ex.unit_nested] at hk; cases hk

/-- The example program can be imported, so the hypotheses of the theorems above can be met; `n::A` is a subclass of `n::B`. -/
theorem Ex.unit_imported : ∃ fs' srcs pairs p, Generated Ex.unit (Ex.opts 1000) Ex.fsEmpty fs' srcs ∧
    importModule pairs (importOps Ex.unit.E srcs) = some p ∧ p.isSubclass c!"n::A" c!"n::B" ∧ ¬ p.isSubclass c!"n::B" c!"n::A" := by
  obtain ⟨fs', h, _⟩ := Ex.unit_done
  obtain ⟨h1, h2, h3, h4, h5⟩ := Ex.unit_importable
  obtain ⟨srcs, pairs, root, hg, _, _, p, hp⟩ := C81_import_partial Ex.unit (Ex.opts 1000) Ex.fsEmpty fs' Ex.fsEmpty_wf (by decide)
    (Ex.unit_distinct 1000) Ex.env_wellfounded h Ex.unit_basesPlain Ex.unit_members h1 h2 h3 h4 _ h5
  refine ⟨fs', srcs, pairs, p, hg, hp, ?_, ?_⟩
  · rw [C84_subclass _ _ _ _ _ hg _ _ hp]
    have e0 : classQualifiedName Ex.unit.E (Ex.unit.E.cls 0) = c!"n::A" := by decide +kernel
    have e1 : classQualifiedName Ex.unit.E (Ex.unit.E.cls 1) = c!"n::B" := by decide +kernel
    have hr : Reached Ex.unit (.cls 0) := by
      refine Ex.asked (by decide +kernel) True.intro (by decide +kernel) ?_ rfl (by decide +kernel)
      unfold Converted; decide +kernel
    rw [← e0, ← e1]
    exact .step ⟨⟨.cls 0, hr, rfl, by decide +kernel⟩, rfl⟩ ((mem_boundBases _ _ _).1 (by decide +kernel)) (.refl _)
  · rw [C84_subclass _ _ _ _ _ hg _ _ hp]
    intro hd
    generalize e : c!"n::B" = q, e' : c!"n::A" = r at hd
    cases hd with
    | refl => rw [← e] at e'; revert e'; decide
    | step _ hl _ =>
      obtain ⟨rfl, rfl⟩ := Ex.unit_listed hl
      revert e; decide +kernel

/-- The further hypotheses of `C84_modules`, `C84_functions` and `C84_inherited` are met by the example program. -/
example : (∀ v, Reached Ex.unit v → namespaceOf Ex.unit.E v = joinNs [namespaceOf Ex.unit.E v] ∧ ∀ x ∈ [namespaceOf Ex.unit.E v], IsComponent x) ∧
    Reached Ex.unit (.fn Ex.fun_f) ∧
    (∀ op, Made Ex.unit op → ((.module (namespaceOf Ex.unit.E (.fn Ex.fun_f)), pythonFunctionName Ex.fun_f), .object) ∉ op.binds) ∧
    ∃ op, op ∈ opsOf Ex.unit.E (.cls 1) ∧ ((.type c!"n::B", c!"__init__"), .func true) ∈ op.binds := by
  refine ⟨?_, Ex.unit_reached.1, ?_, .function (.type c!"n::B") c!"__init__" true, by decide +kernel, by simp [Op.binds]⟩
  · intro v hv
    refine ⟨rfl, ?_⟩
    have : ∀ v ∈ Ex.unit.visits, namespaceOf Ex.unit.E v ≠ [] ∧ ':' ∉ namespaceOf Ex.unit.E v := by decide +kernel
    intro x hx
    rw [List.mem_singleton.1 hx]
    exact this v (Ex.unit_visits hv)
  · rintro op ⟨v, hv, _, hop⟩
    have : ∀ v ∈ Ex.unit.visits, ∀ op ∈ opsOf Ex.unit.E v, ((Scope.module (namespaceOf Ex.unit.E (.fn Ex.fun_f)), pythonFunctionName Ex.fun_f), Kind.object) ∉ op.binds := by
      decide +kernel
    exact this v (Ex.unit_visits hv) op hop

/-! ## Bases that are not bound -/

/-- `struct A {}; struct B : A {}; struct D : B {};` with `+namespace` for all and `-class B`. -/
def Ex.skippedBase : TransUnit :=
  { env := withClasses { exampleEnv with tyName := Ex.diamondName, cfg := { namespacesToBind := [c!""], classesToSkip := [c!"B"] }, baseRank := id }
      [exampleRecord, { exampleRecord with name := c!"B", qname := c!"B", bases := [⟨.pub, false, some 0⟩] },
       { exampleRecord with name := c!"D", qname := c!"D", bases := [⟨.pub, false, some 1⟩] }]
    visits := [.cls 0, .cls 1, .cls 2], inSystem := fun _ => false, depth := 20 }

theorem Ex.skippedBase_listed {i j : Nat} (h : ListedBase Ex.skippedBase.E i j) : i = 1 ∧ j = 0 := by
  have h' := (mem_boundBases _ _ _).2 h
  match i with
  | 0 => rw [show boundBases Ex.skippedBase.E (Ex.skippedBase.E.cls 0) = [] by decide +kernel] at h'; cases h'
  | 1 => rw [show boundBases Ex.skippedBase.E (Ex.skippedBase.E.cls 1) = [0] by decide +kernel] at h'; exact ⟨rfl, List.mem_singleton.1 h'⟩
  | 2 => rw [show boundBases Ex.skippedBase.E (Ex.skippedBase.E.cls 2) = [] by decide +kernel] at h'; cases h'
  | n + 3 => rw [show boundBases Ex.skippedBase.E (Ex.skippedBase.E.cls (n + 3)) = [] from rfl] at h'; cases h'

theorem Ex.skippedBase_nested (i : Nat) : nestedBound Ex.skippedBase.E (Ex.skippedBase.E.cls i) = [] := by
  have : ∀ i, (Ex.skippedBase.E.cls i).members = [] := by
    intro i
    match i with
    | 0 | 1 | 2 => rfl
    | n + 3 => rfl
  simp [nestedBound, Env.nestedClasses, this]

/-- C84 is wrong for bases of bases: `D` and `A` are bound, and every `D` is an `A` in C++; but `B` between them is skipped, and so Python does
not know it. -/
theorem C84_skipped_base_false : ∃ o fs' srcs pairs p, Ex.skippedBase.Ends o Ex.fsEmpty (.done fs') ∧ Generated Ex.skippedBase o Ex.fsEmpty fs' srcs ∧
    importModule pairs (importOps Ex.skippedBase.E srcs) = some p ∧ HasClass Ex.skippedBase 0 ∧ HasClass Ex.skippedBase 2 ∧
    (Ex.skippedBase.E.cls 2).bases = [⟨.pub, false, some 1⟩] ∧ (Ex.skippedBase.E.cls 1).bases = [⟨.pub, false, some 0⟩] ∧
    ¬ p.isSubclass (classQualifiedName Ex.skippedBase.E (Ex.skippedBase.E.cls 2)) (classQualifiedName Ex.skippedBase.E (Ex.skippedBase.E.cls 0)) := by
  obtain ⟨fs', h, _⟩ : ∃ fs', Ex.skippedBase.Ends { Ex.opts 1000 with single := true } Ex.fsEmpty (.done fs') ∧ (fun _ => true) fs' = true :=
    Ex.ends_after (n := 20) (by decide +kernel)
  have hreg : ∀ i a j b k, registers Ex.skippedBase.E (.cls i) = a ++ j :: b → j ≠ i → ListedBase Ex.skippedBase.E j k → k ∈ a := by
    intro i a j b k h hj _
    have hm : j ∈ registers Ex.skippedBase.E (.cls i) := by rw [h]; simp
    rcases registersF_cases hm with rfl | ⟨k', hk⟩
    · exact absurd rfl hj
    · rw [Ex.skippedBase_nested] at hk; cases hk
  have hvis : ∀ v, Reached Ex.skippedBase v → v ∈ Ex.skippedBase.visits := fun v hv => (considered_offered hv.considered).1
  have hns : ∀ v ∈ Ex.skippedBase.visits, namespaceOf Ex.skippedBase.E v = [] := by decide +kernel
  have hplain : BasesPlain Ex.skippedBase := by
    constructor
    · intro i j k h hk
      obtain ⟨rfl, rfl⟩ := Ex.skippedBase_listed h
      have key : ∀ k < 3, classQualifiedName Ex.skippedBase.E (Ex.skippedBase.E.cls k) = classQualifiedName Ex.skippedBase.E (Ex.skippedBase.E.cls 0) ∨
          typeNameOfRecord Ex.skippedBase.E k = typeNameOfRecord Ex.skippedBase.E 0 → k = 0 := by decide +kernel
      refine key k ?_
      have := (considered_offered hk).1
      simp only [Ex.skippedBase, List.mem_cons, Visit.cls.injEq, List.not_mem_nil, or_false] at this
      omega
    · intro i j k h
      obtain ⟨rfl, rfl⟩ := Ex.skippedBase_listed h
      have : typeNameOfEnum Ex.skippedBase.E k = typeNameOfEnum Ex.skippedBase.E 0 := by
        unfold typeNameOfEnum stdTy
        have h1 : Ex.skippedBase.E.tyName (.enum k) = Ex.skippedBase.E.tyName (.enum 0) := rfl
        have h2 : Ex.skippedBase.E.tyName (Ty.enum k).canon = Ex.skippedBase.E.tyName (Ty.enum 0).canon := rfl
        rw [h1, h2]
      rw [this]
      decide +kernel
    · intro i j h; obtain ⟨rfl, rfl⟩ := Ex.skippedBase_listed h; exact ⟨rfl, .inl rfl⟩
    · intro i j h; obtain ⟨rfl, rfl⟩ := Ex.skippedBase_listed h; decide +kernel
    · intro i j _; rfl
  have hanon : ∀ i, (Ex.skippedBase.E.cls i).isAnonymous = false := by
    intro i
    match i with
    | 0 | 1 | 2 => rfl
    | n + 3 => rfl
  have hcomp : Compatible (fun op => ∃ v, Reached Ex.skippedBase v ∧ op ∈ opsOf Ex.skippedBase.E v) (HasModule Ex.skippedBase)
      (fun q => if q = c!"B" then [c!"B", c!"A"] else [q]) := by
    refine compatible_of_list (ops := Ex.skippedBase.visits.flatMap (opsOf Ex.skippedBase.E)) (pairs := [c!""].map fun n => ([], n)) ?_ ?_ (by decide +kernel)
    · rintro op ⟨v, hv, hop⟩
      exact List.mem_flatMap.2 ⟨v, hvis v hv, hop⟩
    · intro x hx
      exact hasModule_single (fun v hv => by rw [hns v (hvis v hv)]; simp) (by decide) hx
  have hone : OneDefinition Ex.skippedBase := by
    constructor
    · intro v hv
      have : ∀ v ∈ Ex.skippedBase.visits, ((opsOf Ex.skippedBase.E v).filterMap Op.type?).Nodup := by decide +kernel
      exact this v (hvis v hv)
    · intro v w q hv hw
      have : ∀ v ∈ Ex.skippedBase.visits, ∀ w ∈ Ex.skippedBase.visits, ∀ q ∈ (opsOf Ex.skippedBase.E v).filterMap Op.type?,
          q ∈ (opsOf Ex.skippedBase.E w).filterMap Op.type? → v = w := by decide +kernel
      exact this v (hvis v hv) w (hvis w hw) q
  obtain ⟨srcs, pairs, root, hg, _, _, p, hp⟩ := C81_import_partial Ex.skippedBase _ Ex.fsEmpty fs' Ex.fsEmpty_wf (by decide) (.inl rfl)
    (wellfounded_of_ranked (by decide)) h hplain hreg hone
    ⟨fun i j hj => (by rw [Ex.skippedBase_nested] at hj; cases hj), fun i j hj => (by rw [Ex.skippedBase_nested] at hj; cases hj)⟩
    (fun i _ => hanon i) (fun v hv h => by rw [hns v (hvis v hv)] at h; revert h; decide) _ hcomp
  have hr : ∀ i, i = 0 ∨ i = 2 → HasClass Ex.skippedBase i := by
    intro i hi
    refine ⟨⟨.cls i, ?_, rfl, ?_⟩, rfl⟩
    · rcases hi with rfl | rfl
      · refine Ex.asked (by decide +kernel) True.intro (by decide +kernel) ?_ rfl (by decide +kernel)
        unfold Converted; decide +kernel
      · refine Ex.asked (by decide +kernel) True.intro (by decide +kernel) ?_ rfl (by decide +kernel)
        unfold Converted; decide +kernel
    · rcases hi with rfl | rfl <;> decide +kernel
  refine ⟨_, fs', srcs, pairs, p, h, hg, hp, hr 0 (.inl rfl), hr 2 (.inr rfl), rfl, rfl, ?_⟩
  rw [C84_subclass _ _ _ _ _ hg _ _ hp]
  intro hd
  generalize e : classQualifiedName Ex.skippedBase.E (Ex.skippedBase.E.cls 2) = q,
    e' : classQualifiedName Ex.skippedBase.E (Ex.skippedBase.E.cls 0) = r at hd
  cases hd with
  | refl => rw [← e] at e'; revert e'; decide +kernel
  | step _ hl _ =>
    obtain ⟨rfl, rfl⟩ := Ex.skippedBase_listed hl
    revert e; decide +kernel

end Binder
