import Verif.Lemmas.ImportRun
import Verif.Props.Run

/-!
# The calls of the import of a module
-/

namespace Binder

open Cxx Spec

/-! ## The modules for the namespaces -/

theorem makeModules_of_create {pairs : List (Str × Str)} : ∀ {c c' : List Str} {p : Py}, createModules c pairs = some c' →
    (∀ n, n ∈ p.modules ↔ n ∈ c) → ∃ p', makeModules p pairs = some p' ∧ (∀ n, n ∈ p'.modules ↔ n ∈ c') ∧ p'.types = p.types ∧
      ∀ k kind, (k, kind) ∈ p'.attrs → (k, kind) ∈ p.attrs ∨ (kind = .object ∧ ∃ x ∈ pairs, k = (.module x.1, moduleName x.2)) := by
  induction pairs with
  | nil =>
    intro c c' p h hp
    cases h
    exact ⟨p, rfl, hp, rfl, fun k kind h => .inl h⟩
  | cons x pairs ih =>
    intro c c' p h hp
    obtain ⟨parent, n⟩ := x
    rw [createModules] at h
    split at h
    · rename_i hc
      have h1 : p.modules.contains parent = true := by rw [List.contains_iff_mem]; exact (hp parent).2 hc
      obtain ⟨p', e, hm, ht, ha⟩ := ih h (p := { p with modules := (if parent = [] then n else parent ++ c!"::" ++ n) :: p.modules, attrs := ((.module parent, moduleName n), .object) :: p.attrs }) (by
        intro m
        simp only [List.mem_cons, List.mem_append, List.mem_singleton, hp, List.not_mem_nil, or_false]
        exact Or.comm)
      refine ⟨p', by rw [makeModules, if_pos h1]; exact e, hm, ht, ?_⟩
      intro k kind hk
      rcases ha k kind hk with h | ⟨rfl, x, hx, e⟩
      · rcases List.mem_cons.1 h with h | h
        · injection h with h1 h2
          exact .inr ⟨h2, (parent, n), by simp, h1⟩
        · exact .inl h
      · exact .inr ⟨rfl, x, by simp [hx], e⟩
    · cases h

theorem Spec.MakesModules.right {t : Str} {pairs : List (Str × Str)} (h : MakesModules t pairs) (s : Str) : MakesModules (t ++ s) pairs := by
  obtain ⟨a, b, rfl⟩ := h
  exact ⟨a, b ++ s, List.append_assoc _ _ _⟩

theorem Spec.MakesModules.left {t : Str} {pairs : List (Str × Str)} (h : MakesModules t pairs) (s : Str) : MakesModules (s ++ t) pairs := by
  obtain ⟨a, b, rfl⟩ := h
  refine ⟨s ++ a, b, ?_⟩
  generalize "\tstd::vector< std::pair<std::string, std::string> > sub_modules {\n".toList = x
  generalize "\t};\n\tfor(auto &p : sub_modules ) modules[ p.first.empty() ? p.second :  p.first+\"::\"+p.second ] = ".toList = y
  generalize "modules[p.first].def_submodule( mangle_namespace_name(p.second).c_str(), ".toList = z
  simp only [List.append_assoc]

theorem makesModules_of (x a : Str) (pairs : List (Str × Str)) :
    MakesModules (x ++ (a ++ "\tstd::vector< std::pair<std::string, std::string> > sub_modules {\n".toList) ++ pairs.flatMap tableLine ++
      "\t};\n\tfor(auto &p : sub_modules ) modules[ p.first.empty() ? p.second :  p.first+\"::\"+p.second ] = ".toList ++
      "modules[p.first].def_submodule( mangle_namespace_name(p.second).c_str(), ".toList) pairs := by
  refine ⟨x ++ a, [], ?_⟩
  generalize "\tstd::vector< std::pair<std::string, std::string> > sub_modules {\n".toList = x
  generalize "\t};\n\tfor(auto &p : sub_modules ) modules[ p.first.empty() ? p.second :  p.first+\"::\"+p.second ] = ".toList = y
  generalize "modules[p.first].def_submodule( mangle_namespace_name(p.second).c_str(), ".toList = z
  simp only [List.append_assoc, List.append_nil]

theorem makesModules_middle (o : Opts) (nss : List Str) : MakesModules (rootMiddle o nss) (subModules nss) := by
  have e : "\t\t\treturn ns+'_';\n\t\t}\n\t);\n\n\tstd::vector< std::pair<std::string, std::string> > sub_modules {\n".toList =
      "\t\t\treturn ns+'_';\n\t\t}\n\t);\n\n".toList ++ "\tstd::vector< std::pair<std::string, std::string> > sub_modules {\n".toList := by
    decide +kernel
  unfold rootMiddle
  rw [e]
  refine .right ?_ _
  refine .right ?_ _
  exact makesModules_of _ _ _

theorem makesModules_root (c : Config) (o : Opts) (nss : List Str) (files : List OutFile) :
    MakesModules (rootFileText c o nss files) (subModules nss) := by
  have h : ∀ fns, MakesModules (rootText c o nss fns) (subModules nss) := by
    intro fns
    unfold rootText
    exact ((((makesModules_middle o nss).left _).right _).right _)
  unfold rootFileText
  split
  · iterate 9 refine .right ?_ _
    exact (h _).left _
  · exact h _

theorem ancestors_boundary {n : Nat} {ns m : Str} (h : m ∈ ancestors n ns) : m = ns ∨ m ++ c!"::" <+: ns := by
  induction n generalizing ns with
  | zero => simp [ancestors] at h
  | succ n ih =>
    rw [ancestors] at h
    split at h
    · rcases List.mem_cons.1 h with h | h
      · exact .inl h
      · right
        rcases ih h with rfl | h'
        · rcases base_last_cases ns with hb | hb
          · exact absurd hb.1 (ancestors_ne h)
          · exact ⟨lastNamespace ns, hb.symm⟩
        · exact h'.trans (base_prefix ns)
    · simp at h

theorem base_last_full {n : Str} (h : ¬ c!"::" <+: n) :
    (if baseNamespace n = [] then lastNamespace n else baseNamespace n ++ c!"::" ++ lastNamespace n) = n := by
  rcases base_last_cases n with h' | h'
  · rw [if_pos h'.1, h'.2]
  · by_cases hb0 : baseNamespace n = []
    · exact absurd ⟨lastNamespace n, by rw [hb0] at h'; simpa using h'.symm⟩ h
    · rw [if_neg hb0]; exact h'.symm

/-! ## The calls for a class -/

theorem knownTypes_flatMap {α : Type} (l : List α) (f : α → List Op) : knownTypes (l.flatMap f) = l.flatMap fun a => knownTypes (f a) := by
  simp [knownTypes, List.filterMap_flatMap]

theorem overloads_mem {F : Func} {first : Nat} {op x : Op} (h : x ∈ overloads F first op) : x = op := by
  simp only [overloads, List.mem_map] at h
  obtain ⟨_, _, rfl⟩ := h
  rfl

theorem itemOps_scope {E : Env} {i : Nat} {s : Scope} {it : Item} {op : Op} (h : op ∈ itemOps E i s it) : op.scope = s ∧ op.bases = [] := by
  cases it <;> simp only [itemOps] at h
  case ctor => rw [overloads_mem h]; exact ⟨rfl, rfl⟩
  case method => rw [overloads_mem h]; exact ⟨rfl, rfl⟩
  case copyCtor =>
    rcases List.mem_cons.1 h with rfl | h
    · exact ⟨rfl, rfl⟩
    · split at h
      · rw [List.mem_singleton.1 h]; exact ⟨rfl, rfl⟩
      · cases h
  all_goals (rw [List.mem_singleton.1 h]; exact ⟨rfl, rfl⟩)

/-- What stands before a call in the calls for a class. -/
structure InClass (E : Env) (n : Nat) (outer : Scope) (i : Nat) (u : List Op) (op : Op) : Prop where
  module : ∀ ns, op.scope = .module ns → ns = nsOf E (E.cls i).qname (E.cls i).name ∨ outer = .module ns
  type : ∀ q, op.scope = .type q → q ∈ knownTypes u ∨ outer = .type q
  bases : op.bases = [] ∨ ∃ j a b, op.bases = (boundBases E (E.cls j)).map (fun k => classQualifiedName E (E.cls k)) ∧
    registersF E n i = a ++ j :: b ∧ (∀ k ∈ a, classQualifiedName E (E.cls k) ∈ knownTypes u) ∧
    E.cfg.binders (stdName E (E.cls j).qname) = none ∧ (E.cls j).isAnonymous = false

/-- The types of the classes registered are known afterwards. -/
theorem known_registers (E : Env) (n : Nat) : ∀ (outer : Scope) (i k : Nat), k ∈ registersF E n i →
    classQualifiedName E (E.cls k) ∈ knownTypes (classOpsF E n outer i) := by
  induction n with
  | zero => intro outer i k h; simp [registersF] at h
  | succ n ih =>
    intro outer i k h
    rw [registersF] at h
    rw [classOpsF]
    split at h
    · cases h
    rename_i h1
    rw [if_neg h1]
    split at h
    · rename_i h2
      rw [if_pos h2, List.mem_singleton.1 h]
      simp [knownTypes, Op.type?]
    · rename_i h2
      rw [if_neg h2, knownTypes_append, knownTypes_append, knownTypes_flatMap (nestedBound E (E.cls i))]
      rcases List.mem_append.1 h with h | h
      · split at h
        · cases h
        · rename_i h3
          rw [List.mem_singleton.1 h, if_neg h3]
          simp [knownTypes, Op.type?]
      · obtain ⟨j, hj, hk⟩ := List.mem_flatMap.1 h
        exact List.mem_append_right _ (List.mem_flatMap.2 ⟨j, hj, ih _ j k hk⟩)

theorem append_split {α : Type} {a b u w : List α} {x : α} (h : a ++ b = u ++ x :: w) :
    (∃ c, a = u ++ x :: c ∧ w = c ++ b) ∨ ∃ c, u = a ++ c ∧ b = c ++ x :: w := by
  rcases List.append_eq_append_iff.1 h with ⟨c, e1, e2⟩ | ⟨c, e1, e2⟩
  · exact .inr ⟨c, e1, e2⟩
  · cases c with
    | nil => exact .inr ⟨[], by simpa using e1.symm, by simpa using e2.symm⟩
    | cons y c =>
      rw [List.cons_append] at e2
      injection e2 with h1 h2
      subst h1
      exact .inl ⟨c, e1, h2⟩

theorem inClass (E : Env) (hm : ∀ i, ∀ j ∈ nestedBound E (E.cls i), (E.cls j).outer.isSome = true)
    (hb : ∀ i, ∀ j ∈ nestedBound E (E.cls i), E.cfg.binders (stdName E (E.cls j).qname) = none) (n : Nat) :
    ∀ (outer : Scope) (i : Nat) (u : List Op) (op : Op) (w : List Op), classOpsF E n outer i = u ++ op :: w →
      InClass E n outer i u op ∧ (((E.cls i).outer.isSome = true ∧ E.cfg.binders (stdName E (E.cls i).qname) = none) →
        ∀ ns, op.scope = .module ns → outer = .module ns) := by
  induction n with
  | zero => intro outer i u op w h; simp [classOpsF] at h
  | succ n ih =>
    intro outer i u op w h
    rw [classOpsF] at h
    split at h
    · simp at h
    rename_i h1
    split at h
    · rename_i h2
      have hu : u = [] ∧ op = .binder (nsOf E (E.cls i).qname (E.cls i).name) (classQualifiedName E (E.cls i)) := by
        cases u with
        | nil => injection h with h _; exact ⟨rfl, h.symm⟩
        | cons y u => simp at h
      obtain ⟨rfl, rfl⟩ := hu
      refine ⟨⟨?_, ?_, .inl rfl⟩, ?_⟩
      · intro ns e; injection e with e; exact .inl e.symm
      · intro q e; cases e
      · intro hc; rw [hc.2] at h2; cases h2
    · rename_i h2
      have hbn : E.cfg.binders (stdName E (E.cls i).qname) = none := by simpa using h2
      have hreg : registersF E (n + 1) i = (if (E.cls i).isAnonymous then [] else [i]) ++ (nestedBound E (E.cls i)).flatMap (registersF E n) := by
        rw [registersF, if_neg h1, if_neg h2]
      generalize hs : (if (E.cls i).isAnonymous = true then outer else Scope.type (classQualifiedName E (E.cls i))) = s at h
      have hfirst : ∀ v : List Op, ∀ q, s = .type q →
          q ∈ knownTypes ((if (E.cls i).isAnonymous = true then [] else [Op.class_ (if (E.cls i).outer.isSome = true then outer else
            .module (nsOf E (E.cls i).qname (E.cls i).name)) (pythonClassName E (E.cls i)) (classQualifiedName E (E.cls i))
            ((boundBases E (E.cls i)).map fun j => classQualifiedName E (E.cls j))]) ++ v) ∨ outer = .type q := by
        intro v q hq
        split at hs
        · rename_i ha
          exact .inr (by rw [hs, hq])
        · rename_i ha
          left
          rw [← hs] at hq
          injection hq with hq
          rw [if_neg ha, knownTypes_append, ← hq]
          simp [knownTypes, Op.type?]
      have hmod : ∀ ns, s = .module ns → outer = .module ns := by
        intro ns e
        split at hs
        · rw [hs, e]
        · rw [← hs] at e; cases e
      rcases append_split h with ⟨c, e, _⟩ | ⟨c, e, e'⟩
      · rcases append_split e with ⟨c', e, _⟩ | ⟨c', e, e'⟩
        · split at e
          · simp at e
          rename_i ha
          have hu : u = [] ∧ op = Op.class_ (if (E.cls i).outer.isSome = true then outer else
            .module (nsOf E (E.cls i).qname (E.cls i).name)) (pythonClassName E (E.cls i)) (classQualifiedName E (E.cls i))
            ((boundBases E (E.cls i)).map fun j => classQualifiedName E (E.cls j)) := by
            cases u with
            | nil => injection e with e _; exact ⟨rfl, e.symm⟩
            | cons y u => simp at e
          obtain ⟨rfl, rfl⟩ := hu
          refine ⟨⟨?_, ?_, .inr ⟨i, [], (nestedBound E (E.cls i)).flatMap (registersF E n), rfl, by rw [hreg, if_neg ha]; rfl, by simp, hbn, by simpa using ha⟩⟩, ?_⟩
          · intro ns e
            simp only [Op.scope] at e
            split at e
            · exact .inr e
            · injection e with e; exact .inl e.symm
          · intro q e
            simp only [Op.scope] at e
            split at e
            · exact .inr e
            · cases e
          · intro hc ns e
            simp only [Op.scope] at e
            rw [if_pos hc.1] at e
            exact e
        · have hop : op ∈ (classItems E i).flatMap (itemOps E i s) := by rw [e']; simp
          obtain ⟨it, _, hop⟩ := List.mem_flatMap.1 hop
          obtain ⟨g1, g2⟩ := itemOps_scope hop
          refine ⟨⟨?_, ?_, .inl g2⟩, ?_⟩
          · intro ns en; rw [g1] at en; exact .inr (hmod ns en)
          · intro q eq; rw [g1] at eq; rw [e]; exact hfirst c' q eq
          · intro _ ns en; rw [g1] at en; exact hmod ns en
      · obtain ⟨l1, j, l2, u', w', r1, r2, r3⟩ := flatMap_split _ _ _ _ _ e'
        have hj : j ∈ nestedBound E (E.cls i) := by rw [r1]; simp
        obtain ⟨g, g'⟩ := ih s j u' op w' r3
        have g' := g' ⟨hm i j hj, hb i j hj⟩
        refine ⟨⟨?_, ?_, ?_⟩, ?_⟩
        · intro ns en; exact .inr (hmod ns (g' ns en))
        · intro q eq
          rcases g.type q eq with h | h
          · left
            rw [e, r2, knownTypes_append, knownTypes_append, knownTypes_append]
            exact List.mem_append_right _ (List.mem_append_right _ h)
          · rw [e, List.append_assoc]
            exact hfirst _ q h
        · rcases g.bases with h | ⟨k, a, b, b1, b2, b3, b4⟩
          · exact .inl h
          · right
            refine ⟨k, (if (E.cls i).isAnonymous then [] else [i]) ++ (l1.flatMap (registersF E n) ++ a), b ++ l2.flatMap (registersF E n), b1, ?_, ?_, b4⟩
            · rw [hreg, r1, List.flatMap_append, List.flatMap_cons, b2]; simp
            · intro x hx
              rw [e, r2, knownTypes_append, knownTypes_append, knownTypes_append]
              rcases List.mem_append.1 hx with hx | hx
              · split at hx
                · cases hx
                · rename_i ha
                  rw [List.mem_singleton.1 hx, if_neg ha]
                  simp [knownTypes, Op.type?]
              · rcases List.mem_append.1 hx with hx | hx
                · obtain ⟨y, hy, hx⟩ := List.mem_flatMap.1 hx
                  refine List.mem_append_right _ (List.mem_append_left _ ?_)
                  rw [knownTypes_flatMap]
                  exact List.mem_flatMap.2 ⟨y, hy, known_registers E n s y x hx⟩
                · exact List.mem_append_right _ (List.mem_append_right _ (b3 x hx))
        · intro _ ns en; exact hmod ns (g' ns en)

/-- The variable `cl` is not used before the statement for a class outside of classes. -/
theorem classOpsF_top {E : Env} {i n : Nat} {s : Scope} (h : (E.cls i).outer = none) (ha : (E.cls i).isAnonymous = false) (s' : Scope) :
    classOpsF E (n + 1) s i = classOpsF E (n + 1) s' i := by
  rw [classOpsF, classOpsF]
  simp [h, ha]

/-! ## All calls -/

/-- Calls of functions of the user bind nothing. -/
theorem Spec.Compatible.withCalls {P : Op → Prop} {pairs : Str × Str → Prop} {lin : Str → List Str} (h : Compatible P pairs lin) :
    Compatible (fun op => P op ∨ ∃ s, op = .calls s) pairs lin where
  types := by
    rintro a b (ha | ⟨s, rfl⟩) (hb | ⟨s', rfl⟩) k hk kind hm
    · exact h.types a b ha hb k hk kind hm
    · simp [Op.binds] at hm
    · cases hk
    · cases hk
  overloaded := by
    rintro a b (ha | ⟨s, rfl⟩) (hb | ⟨s', rfl⟩) k m m' hm hm'
    · exact h.overloaded a b ha hb k m m' hm hm'
    · simp [Op.binds] at hm'
    · simp [Op.binds] at hm
    · simp [Op.binds] at hm
  functions := by
    rintro a b (ha | ⟨s, rfl⟩) (hb | ⟨s', rfl⟩) ns n m hm hn hm'
    · exact h.functions a b ha hb ns n m hm hn hm'
    · simp [Op.binds] at hm'
    · simp [Op.binds] at hm
    · simp [Op.binds] at hm
  methods := by
    rintro a b (ha | ⟨s, rfl⟩) (hb | ⟨s', rfl⟩) q n m hm hn t ht hm'
    · exact h.methods a b ha hb q n m hm hn t ht hm'
    · simp [Op.binds] at hm'
    · simp [Op.binds] at hm
    · simp [Op.binds] at hm
  namespaces := by
    rintro a (ha | ⟨s, rfl⟩) p hp
    · exact h.namespaces a ha p hp
    · exact ⟨by simp [Op.typeName?], by simp [Op.binds]⟩
  linear := by
    rintro a (ha | ⟨s, rfl⟩) q hq
    · exact h.linear a ha q hq
    · cases hq
  values := by
    rintro s n q vs ex (ha | ⟨s', e⟩)
    · exact h.values s n q vs ex ha
    · cases e

theorem knownTypes_stmts (E : Env) (l : List Stmt) :
    knownTypes (l.flatMap (Stmt.ops E)) = (l.filterMap Stmt.bound).flatMap fun v => knownTypes (opsOf E v) := by
  induction l with
  | nil => rfl
  | cons st l ih =>
    rw [List.flatMap_cons, knownTypes_append, ih]
    cases st with
    | binds v => rfl
    | calls f ns => rfl
    | traces n t => rfl

theorem importOps_eq (E : Env) (srcs : List Source) : importOps E srcs = (srcs.flatMap (·.stmts)).flatMap (Stmt.ops E) := by
  simp [importOps, List.flatMap_assoc]

theorem bound_stmts (srcs : List Source) : (srcs.flatMap (·.stmts)).filterMap Stmt.bound = srcs.flatMap Source.bound := by
  rw [List.filterMap_flatMap]; rfl

theorem nodup_flatMap_of {α β : Type} {l : List α} {f : α → List β} (hl : l.Nodup) (h1 : ∀ a ∈ l, (f a).Nodup)
    (h2 : ∀ a ∈ l, ∀ b ∈ l, ∀ x, x ∈ f a → x ∈ f b → a = b) : (l.flatMap f).Nodup := by
  induction l with
  | nil => simp
  | cons a l ih =>
    rw [List.flatMap_cons, List.nodup_append]
    rw [List.nodup_cons] at hl
    refine ⟨h1 a (by simp), ih hl.2 (fun b hb => h1 b (by simp [hb])) (fun b hb c hc => h2 b (by simp [hb]) c (by simp [hc])), ?_⟩
    intro x hx y hy e
    subst e
    obtain ⟨b, hb, hxb⟩ := List.mem_flatMap.1 hy
    have := h2 a (by simp) b (by simp [hb]) x hx hxb
    subst this
    exact hl.1 hb

/-- The scope, the bases and the type of a call are there when it is made. -/
theorem RunDone.readyOp {U : TransUnit} {o : Opts} {fs fs' fs1 fs2 : FS} {st : BindState} {bs : List SortItem} {files : List OutFile}
    (h : RunDone U o fs fs' st bs files fs1 fs2) (hn : U.visits.length + 1 < 2 ^ 32) (hwf : U.env.Wellfounded)
    (hg : Generated U o fs fs' (files.map (sourceOf U o))) (hp : BasesPlain U)
    (hnest : ∀ i a j b k, registers U.E (.cls i) = a ++ j :: b → j ≠ i → ListedBase U.E j k → k ∈ a)
    (hone : OneDefinition U) (hmem : MembersPlain U) (hanon : ∀ i, Reached U (.cls i) → (U.E.cls i).isAnonymous = false)
    {a : List Op} {op : Op} {b : List Op} (e : importOps U.E (files.map (sourceOf U o)) = a ++ op :: b) :
    ReadyOp ([] :: allNestedNamespaces bs) a op := by
  have hmodule : ∀ v, Reached U v → namespaceOf U.E v ∈ ([] :: allNestedNamespaces bs : List Str) := by
    intro v hr
    obtain ⟨x, hx, ex⟩ := h.item_of hr.considered
    have hv := h.visitOf hx
    have : Binder.visitOf U x = v := considered_inj hv.1 hr.considered (hv.2.1.symm.trans ex)
    rw [this] at hv
    have hne : x.code ≠ [] := by rw [hv.2.2.1 hr]; exact bindingOf_ne_nil hr
    by_cases h0 : namespaceOf U.E v = []
    · rw [h0]; simp
    · refine List.mem_cons_of_mem _ (mem_allNested.2 ⟨x, hx, hne, ?_⟩)
      rw [ex, decl_ns]
      exact self_mem_ancestors (Nat.le_refl _) h0
  have hfresh : ∀ q, op.type? = some q → q ∉ knownTypes a := by
    intro q hq hm
    have hnd : (knownTypes (importOps U.E (files.map (sourceOf U o)))).Nodup := by
      rw [importOps_eq, knownTypes_stmts, bound_stmts]
      refine nodup_flatMap_of hg.once ?_ ?_
      · intro v hv; exact hone.inside v ((hg.exactly v).1 hv).1
      · intro v hv w hw x hx hx'
        exact hone.across v w x ((hg.exactly v).1 hv).1 ((hg.exactly w).1 hw).1 hx hx'
    rw [e, knownTypes_append, List.nodup_append] at hnd
    exact hnd.2.2 q hm q (by simp [knownTypes, hq]) rfl
  rw [importOps_eq] at e
  obtain ⟨l1, s, l2, u, w, e1, rfl, e3⟩ := flatMap_split _ _ _ _ _ e
  cases s with
  | traces n t => simp [Stmt.ops] at e3
  | calls f ns =>
    have hu : op = .calls (.module ns) := by
      cases u with
      | nil => injection e3 with e3 _; exact e3.symm
      | cons y u => simp [Stmt.ops] at e3
    subst hu
    refine ⟨?_, (by intro q hq; cases hq), (by intro x hx; simp [Op.bases] at hx), hfresh⟩
    intro ns' en
    injection en with en
    have : Stmt.calls f ns ∈ (files.map (sourceOf U o)).flatMap (·.stmts) := by rw [e1]; simp
    obtain ⟨src, hsrc, hst⟩ := List.mem_flatMap.1 this
    obtain ⟨_, v, hr, hv⟩ := hg.calls src hsrc f ns hst
    rw [← en, ← hv]
    exact hmodule v hr
  | binds v =>
    have hbound : (files.map (sourceOf U o)).flatMap Source.bound = l1.filterMap Stmt.bound ++ v :: l2.filterMap Stmt.bound := by
      rw [← bound_stmts, e1, List.filterMap_append, List.filterMap_cons]
      rfl
    have hr : Reached U v := ((hg.exactly v).1 (by rw [hbound]; simp)).1
    have hopm : op ∈ opsOf U.E v := by
      change opsOf U.E v = _ at e3
      rw [e3]; simp
    cases v with
    | fn F =>
      rw [overloads_mem hopm]
      refine ⟨?_, (by intro q hq; cases hq), (by intro x hx; simp [Op.bases] at hx), by intro q hq; cases hq⟩
      intro ns en
      injection en with en
      rw [← en]
      exact hmodule _ hr
    | enm k =>
      have hop := List.mem_singleton.1 hopm
      rw [hop] at hfresh ⊢
      refine ⟨?_, (by intro q hq; cases hq), (by intro x hx; simp [Op.bases, enumOp] at hx), hfresh⟩
      intro ns en
      injection en with en
      rw [← en]
      exact hmodule _ hr
    | cls i =>
      change classOpsF U.E (U.E.nestRank i + 1) (.type []) i = _ at e3
      obtain ⟨g, _⟩ := inClass U.E hmem.outer hmem.binder _ _ _ _ _ _ e3
      have hno : ∀ q, op.scope = .type q → q ∈ knownTypes u := by
        intro q hq
        have ho : (U.E.cls i).outer = none := ((offered_iff U _).1 (considered_offered hr.considered).2).1
        rw [classOpsF_top ho (hanon i hr) (.type (q ++ c!"'"))] at e3
        rcases (inClass U.E hmem.outer hmem.binder _ _ _ _ _ _ e3).1.type q hq with h' | h'
        · exact h'
        · injection h' with h'
          exact absurd (congrArg List.length h') (by simp)
      refine ⟨?_, ?_, ?_, hfresh⟩
      · intro ns en
        rcases g.module ns en with rfl | h'
        · exact hmodule _ hr
        · cases h'
      · intro q hq
        rw [knownTypes_append]
        exact List.mem_append_right _ (hno q hq)
      · intro x hx
        rcases g.bases with h0 | ⟨j, a', b', b1, b2, b3, b4, b5⟩
        · rw [h0] at hx; cases hx
        · rw [b1] at hx
          obtain ⟨k, hk, rfl⟩ := List.mem_map.1 hx
          have hk : ListedBase U.E j k := (mem_boundBases _ _ _).1 hk
          rw [knownTypes_append]
          by_cases hji : j = i
          · subst hji
            have := h.base_before hn hwf hp hbound hr b4 b5 hk
            refine List.mem_append_left _ ?_
            rw [knownTypes_stmts]
            refine List.mem_flatMap.2 ⟨_, this, ?_⟩
            exact known_registers _ _ _ _ _ (registers_self (hp.conv j k hk) (hp.base j k hk).1)
          · exact List.mem_append_right _ (b3 k (hnest i a' j b' k b2 hji hk))

end Binder
