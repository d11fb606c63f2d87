import Verif.Lemmas.ImportRun

/-!
# What follows from a successful import
-/

namespace Binder

open Spec

/-- The names bound by a call. -/
theorem exec_attrs {p p' : Py} {op : Op} (h : p.exec op = some p') : ∃ new, p'.attrs = new ++ p.attrs ∧ ∀ x, x ∈ new ↔ x ∈ op.binds := by
  cases op with
  | class_ s n q bs =>
    simp only [Py.exec, Py.register] at h
    split at h
    · obtain ⟨l, _, rfl⟩ := Option.map_eq_some_iff.1 h
      exact ⟨[((s, n), .object)], rfl, by simp [Op.binds]⟩
    · cases h
  | enum_ s n q vs ex =>
    simp only [Py.exec] at h
    split at h
    · obtain ⟨p1, h1, h2⟩ := Option.map_eq_some_iff.1 h
      simp only [Py.register] at h1
      split at h1
      · obtain ⟨l, _, rfl⟩ := Option.map_eq_some_iff.1 h1
        cases ex with
        | true =>
          simp only [if_true] at h2
          subst h2
          refine ⟨vs.map (fun v => ((s, v), .object)) ++ [((s, n), .object)], by simp, ?_⟩
          intro x
          simp only [Op.binds, if_true, List.mem_append, List.mem_cons, List.not_mem_nil, or_false]
          exact Or.comm
        | false =>
          simp only [Bool.false_eq_true, if_false] at h2
          subst h2
          exact ⟨[((s, n), .object)], rfl, by simp [Op.binds]⟩
      · cases h1
    · cases h
  | property s n =>
    simp only [Py.exec] at h
    split at h
    · cases h; exact ⟨[((s, n), .object)], rfl, by simp [Op.binds]⟩
    · cases h
  | function s n m =>
    simp only [Py.exec] at h
    split at h
    · cases h; exact ⟨[((s, n), .func m)], rfl, by simp [Op.binds]⟩
    · cases h
  | calls s =>
    simp only [Py.exec] at h
    split at h
    · cases h; exact ⟨[], rfl, by simp [Op.binds]⟩
    · cases h
  | binder ns q =>
    simp only [Py.exec] at h
    split at h
    · cases h; exact ⟨[], rfl, by simp [Op.binds]⟩
    · cases h

/-- The types made known by a call, and that they were not known before. -/
theorem exec_types {p p' : Py} {op : Op} (h : p.exec op = some p') :
    (op.type? = none ∧ p'.types = p.types) ∨ ∃ q l, op.type? = some q ∧ p.types.lookup q = none ∧ p'.types = (q, l) :: p.types ∧
      linearize p.order q op.bases = some l ∧ ∀ b ∈ op.bases, (p.types.lookup b).isSome = true := by
  have hreg : ∀ s n q bs p1, p.register s n q bs = some p1 → ∃ l, p.types.lookup q = none ∧ p1.types = (q, l) :: p.types ∧
      linearize p.order q bs = some l ∧ ∀ b ∈ bs, (p.types.lookup b).isSome = true := by
    intro s n q bs p1 h
    simp only [Py.register] at h
    split at h
    · rename_i hc
      simp only [Bool.and_eq_true, Option.isNone_iff_eq_none, List.all_eq_true] at hc
      obtain ⟨l, hl, rfl⟩ := Option.map_eq_some_iff.1 h
      exact ⟨l, hc.1.2, rfl, hl, hc.2⟩
    · cases h
  cases op with
  | class_ s n q bs =>
    obtain ⟨l, h⟩ := hreg s n q bs p' h
    exact .inr ⟨q, l, rfl, h⟩
  | enum_ s n q vs ex =>
    simp only [Py.exec] at h
    split at h
    · obtain ⟨p1, h1, h2⟩ := Option.map_eq_some_iff.1 h
      obtain ⟨l, g1, g2, g3⟩ := hreg s n q [] p1 h1
      refine .inr ⟨q, l, rfl, g1, ?_, g3⟩
      rw [← h2]
      split
      · exact g2
      · exact g2
    · cases h
  | property s n =>
    simp only [Py.exec] at h
    split at h
    · cases h; exact .inl ⟨rfl, rfl⟩
    · cases h
  | function s n m =>
    simp only [Py.exec] at h
    split at h
    · cases h; exact .inl ⟨rfl, rfl⟩
    · cases h
  | calls s =>
    simp only [Py.exec] at h
    split at h
    · cases h; exact .inl ⟨rfl, rfl⟩
    · cases h
  | binder ns q =>
    simp only [Py.exec] at h
    split at h
    · rename_i hc
      simp only [Bool.and_eq_true, Option.isNone_iff_eq_none] at hc
      cases h
      exact .inr ⟨q, [q], rfl, hc.2, rfl, rfl, by simp [Op.bases]⟩
    · cases h

/-- The modules stay, and the scope of a call exists. -/
theorem exec_scope {p p' : Py} {op : Op} (h : p.exec op = some p') : p'.modules = p.modules ∧ p.has op.scope = true := by
  have hreg : ∀ s n q bs p1, p.register s n q bs = some p1 → p1.modules = p.modules ∧ p.has s = true := by
    intro s n q bs p1 h
    simp only [Py.register] at h
    split at h
    · rename_i hc
      simp only [Bool.and_eq_true] at hc
      obtain ⟨l, hl, rfl⟩ := Option.map_eq_some_iff.1 h
      exact ⟨rfl, hc.1.1.1⟩
    · cases h
  cases op with
  | class_ s n q bs => exact hreg s n q bs p' h
  | enum_ s n q vs ex =>
    simp only [Py.exec] at h
    split at h
    · obtain ⟨p1, h1, h2⟩ := Option.map_eq_some_iff.1 h
      obtain ⟨g1, g2⟩ := hreg s n q [] p1 h1
      refine ⟨?_, g2⟩
      rw [← h2]
      split
      · exact g1
      · exact g1
    · cases h
  | property s n =>
    simp only [Py.exec] at h
    split at h
    · rename_i hc; cases h; exact ⟨rfl, hc⟩
    · cases h
  | function s n m =>
    simp only [Py.exec] at h
    split at h
    · rename_i hc
      simp only [Bool.and_eq_true] at hc
      cases h; exact ⟨rfl, hc.1.1⟩
    · cases h
  | calls s =>
    simp only [Py.exec] at h
    split at h
    · rename_i hc; cases h; exact ⟨rfl, hc⟩
    · cases h
  | binder ns q =>
    simp only [Py.exec] at h
    split at h
    · rename_i hc
      simp only [Bool.and_eq_true] at hc
      cases h; exact ⟨rfl, hc.1⟩
    · cases h

theorem execAll_cons {p p' : Py} {op : Op} {ops : List Op} (h : p.execAll (op :: ops) = some p') :
    ∃ p1, p.exec op = some p1 ∧ p1.execAll ops = some p' := by
  rw [Py.execAll] at h
  split at h
  · cases h
  · exact ⟨_, by assumption, h⟩

theorem lookup_isSome_of_mem {α β : Type} [BEq α] [LawfulBEq α] {l : List (α × β)} {a : α} {b : β} (h : (a, b) ∈ l) : (l.lookup a).isSome = true := by
  induction l with
  | nil => cases h
  | cons x l ih =>
    obtain ⟨a', b'⟩ := x
    rw [List.lookup_cons]
    by_cases e : a == a'
    · rw [e]; rfl
    · simp only [e]
      rcases List.mem_cons.1 h with h | h
      · injection h with h1 _
        exact absurd (by simpa using h1) e
      · simpa using ih h

theorem lookup_append_cases {α β : Type} [BEq α] [LawfulBEq α] (a b : List (α × β)) (k : α) :
    (∃ x, (a ++ b).lookup k = some x ∧ (k, x) ∈ a) ∨ ((∀ x, (k, x) ∉ a) ∧ (a ++ b).lookup k = b.lookup k) := by
  induction a with
  | nil => exact .inr ⟨by simp, rfl⟩
  | cons y a ih =>
    obtain ⟨k', x'⟩ := y
    rw [List.cons_append, List.lookup_cons]
    by_cases e : k == k'
    · rw [e]
      simp only [beq_iff_eq] at e
      subst e
      exact .inl ⟨x', rfl, by simp⟩
    · simp only [e]
      rcases ih with ⟨x, h1, h2⟩ | ⟨h1, h2⟩
      · exact .inl ⟨x, by simpa using h1, by simp [h2]⟩
      · refine .inr ⟨?_, by simpa using h2⟩
        intro x hx
        rcases List.mem_cons.1 hx with hx | hx
        · injection hx with hx _
          exact e (by simpa using hx)
        · exact h1 x hx

/-- What a name stands for after a call. -/
theorem exec_own {p p' : Py} {op : Op} (h : p.exec op = some p') (s : Scope) (n : Str) :
    (∃ kind, p'.own s n = some kind ∧ ((s, n), kind) ∈ op.binds) ∨ ((∀ kind, ((s, n), kind) ∉ op.binds) ∧ p'.own s n = p.own s n) := by
  obtain ⟨new, e, hnew⟩ := exec_attrs h
  unfold Py.own
  rw [e]
  rcases lookup_append_cases new p.attrs (s, n) with ⟨x, h1, h2⟩ | ⟨h1, h2⟩
  · exact .inl ⟨x, h1, (hnew _).1 h2⟩
  · exact .inr ⟨fun kind hk => h1 kind ((hnew _).2 hk), h2⟩

theorem type_name {op : Op} {k : Scope × Str} (h : op.typeName? = some k) : k.1 = op.scope ∧ (k, .object) ∈ op.binds := by
  cases op <;> cases h <;> simp [Op.scope, Op.binds]

/-- A class or an enumeration needs a free name. -/
theorem exec_free {p p' : Py} {op : Op} (h : p.exec op = some p') {k : Scope × Str} (hk : op.typeName? = some k) : p.own k.1 k.2 = none := by
  have hreg : ∀ s n q bs p1, p.register s n q bs = some p1 → p.own s n = none := by
    intro s n q bs p1 h
    simp only [Py.register] at h
    split at h
    · rename_i hc
      simp only [Bool.and_eq_true, Option.isNone_iff_eq_none] at hc
      exact hc.1.1.2
    · cases h
  cases op with
  | class_ s n q bs => cases hk; exact hreg s n q bs p' h
  | enum_ s n q vs ex =>
    cases hk
    simp only [Py.exec] at h
    split at h
    · obtain ⟨p1, h1, h2⟩ := Option.map_eq_some_iff.1 h
      exact hreg s n q [] p1 h1
    · cases h
  | property s n => cases hk
  | function s n m => cases hk
  | calls s => cases hk
  | binder ns q => cases hk

/-- A function of a module needs a name that stands for nothing else. -/
theorem exec_notObject {p p' : Py} {ns n : Str} {m : Bool} (h : p.exec (.function (.module ns) n m) = some p') (hn : n.head? ≠ some '_') :
    p.own (.module ns) n ≠ some .object := by
  simp only [Py.exec] at h
  split at h
  · rename_i hc
    simp only [Bool.and_eq_true, Bool.or_eq_true, bne_iff_ne, beq_iff_eq] at hc
    rcases hc.1.2 with h' | h'
    · exact h'
    · exact absurd h' hn
  · cases h

theorem binds_func {op : Op} {s : Scope} {n : Str} {m : Bool} (h : ((s, n), .func m) ∈ op.binds) : op = .function s n m := by
  cases op with
  | class_ => simp [Op.binds] at h
  | enum_ s' n' q vs ex => cases ex <;> simp [Op.binds] at h
  | property => simp [Op.binds] at h
  | function s' n' m' =>
    simp only [Op.binds, List.mem_singleton, Prod.mk.injEq, Kind.func.injEq] at h
    obtain ⟨⟨rfl, rfl⟩, rfl⟩ := h
    rfl
  | calls => simp [Op.binds] at h
  | binder => simp [Op.binds] at h

/-- A name that is taken stays so; no class can get it. -/
theorem taken_kept (ops : List Op) : ∀ {p p' : Py} {s : Scope} {n : Str}, p.execAll ops = some p' → (p.own s n).isSome = true →
    ∀ op ∈ ops, op.typeName? ≠ some (s, n) := by
  induction ops with
  | nil => intro p p' s n _ _ op h; cases h
  | cons x ops ih =>
    intro p p' s n h ho op hop hk
    obtain ⟨p1, h1, h2⟩ := execAll_cons h
    rcases List.mem_cons.1 hop with rfl | hop
    · rw [exec_free h1 hk] at ho; cases ho
    · refine ih h2 ?_ op hop hk
      rcases exec_own h1 s n with ⟨kind, e, _⟩ | ⟨_, e⟩
      · rw [e]; rfl
      · rw [e]; exact ho

/-- A name in a module that stands for no function stays so; no function can get it. -/
theorem object_kept (ops : List Op) : ∀ {p p' : Py} {ns n : Str}, p.execAll ops = some p' → p.own (.module ns) n = some .object → n.head? ≠ some '_' →
    ∀ m, .function (.module ns) n m ∉ ops := by
  induction ops with
  | nil => intro p p' ns n _ _ _ m h; cases h
  | cons x ops ih =>
    intro p p' ns n h ho hn m hop
    obtain ⟨p1, h1, h2⟩ := execAll_cons h
    rcases List.mem_cons.1 hop with rfl | hop
    · exact exec_notObject h1 hn ho
    · refine ih h2 ?_ hn m hop
      rcases exec_own h1 (.module ns) n with ⟨kind, e, hb⟩ | ⟨_, e⟩
      · cases kind with
        | object => exact e
        | func m' =>
          rw [binds_func hb] at h1
          exact absurd ho (exec_notObject h1 hn)
      · rw [e]; exact ho

theorem no_clash (ops : List Op) : ∀ {p p' : Py} {ns n : Str}, p.execAll ops = some p' → n.head? ≠ some '_' → ∀ op ∈ ops,
    op.typeName? = some (.module ns, n) → ∀ m, .function (.module ns) n m ∉ ops := by
  induction ops with
  | nil => intro p p' ns n _ _ op h; cases h
  | cons x ops ih =>
    intro p p' ns n h hn op hop hk m hf
    obtain ⟨p1, h1, h2⟩ := execAll_cons h
    rcases List.mem_cons.1 hop with rfl | hop'
    · rcases List.mem_cons.1 hf with rfl | hf
      · cases hk
      · refine object_kept ops h2 ?_ hn m hf
        rcases exec_own h1 (.module ns) n with ⟨kind, e, hb⟩ | ⟨hb, e⟩
        · cases kind with
          | object => exact e
          | func m' => rw [binds_func hb] at hk; cases hk
        · exact absurd (type_name hk).2 (hb .object)
    · rcases List.mem_cons.1 hf with rfl | hf
      · refine taken_kept ops h2 (s := .module ns) (n := n) ?_ op hop' hk
        rcases exec_own h1 (.module ns) n with ⟨kind, e, hb⟩ | ⟨hb, e⟩
        · rw [e]; rfl
        · exact absurd (by simp [Op.binds]) (hb (.func m))
      · exact ih h2 hn op hop' hk m hf

/-- A name that stands for functions stays so, unless something else gets it; all are static or none. -/
theorem func_kept (ops : List Op) : ∀ {p p' : Py} {s : Scope} {n : Str} {m : Bool}, p.execAll ops = some p' → p.own s n = some (.func m) →
    (∀ op ∈ ops, ((s, n), .object) ∉ op.binds) → .function s n (!m) ∉ ops := by
  induction ops with
  | nil => intro p p' s n m _ _ _ h; cases h
  | cons x ops ih =>
    intro p p' s n m h ho hno hf
    obtain ⟨p1, h1, h2⟩ := execAll_cons h
    have hx : ∀ m', x = .function s n m' → m' = m := by
      intro m' e
      subst e
      simp only [Py.exec] at h1
      split at h1
      · rename_i hc
        simp only [Bool.and_eq_true, bne_iff_ne, ne_eq, ho, Option.some.injEq, Kind.func.injEq] at hc
        have := hc.2
        cases m <;> cases m' <;> simp at this ⊢
      · cases h1
    rcases List.mem_cons.1 hf with hf | hf
    · have := hx _ hf.symm
      cases m <;> cases this
    · refine ih h2 ?_ (fun op hop => hno op (by simp [hop])) hf
      rcases exec_own h1 s n with ⟨kind, e, hb⟩ | ⟨_, e⟩
      · cases kind with
        | object => exact absurd hb (hno x (by simp))
        | func m' => rw [e, hx m' (binds_func hb)]
      · rw [e]; exact ho

theorem no_mix (ops : List Op) : ∀ {p p' : Py} {s : Scope} {n : Str}, p.execAll ops = some p' → (∀ op ∈ ops, ((s, n), .object) ∉ op.binds) →
    .function s n true ∈ ops → .function s n false ∉ ops := by
  induction ops with
  | nil => intro p p' s n _ _ h; cases h
  | cons x ops ih =>
    intro p p' s n h hno h1 h2
    obtain ⟨p1, e1, e2⟩ := execAll_cons h
    have hno' : ∀ op ∈ ops, ((s, n), .object) ∉ op.binds := fun op hop => hno op (by simp [hop])
    have hown : ∀ m, x = .function s n m → p1.own s n = some (.func m) := by
      intro m hx
      subst hx
      rcases exec_own e1 s n with ⟨kind, e, hb⟩ | ⟨hb, _⟩
      · simp only [Op.binds, List.mem_singleton, Prod.mk.injEq, true_and] at hb
        rw [e, hb]
      · exact absurd (by simp [Op.binds]) (hb (.func m))
    rcases List.mem_cons.1 h1 with h1 | h1
    · rcases List.mem_cons.1 h2 with h2 | h2
      · rw [← h1] at h2; cases h2
      · exact func_kept ops e2 (hown true h1.symm) hno' h2
    · rcases List.mem_cons.1 h2 with h2 | h2
      · exact func_kept ops e2 (hown false h2.symm) hno' h1
      · exact ih e2 hno' h1 h2

/-- Known types stay known, with their search orders. -/
theorem types_kept (ops : List Op) : ∀ {p p' : Py} {q : Str} {l : List Str}, p.execAll ops = some p' → p.types.lookup q = some l →
    p'.types.lookup q = some l ∧ q ∉ knownTypes ops := by
  induction ops with
  | nil => intro p p' q l h hq; cases h; exact ⟨hq, by simp [knownTypes]⟩
  | cons x ops ih =>
    intro p p' q l h hq
    obtain ⟨p1, e1, e2⟩ := execAll_cons h
    rcases exec_types e1 with ⟨ht, e⟩ | ⟨t, l', ht, hn, e, _⟩
    · rw [← e] at hq
      obtain ⟨g1, g2⟩ := ih e2 hq
      refine ⟨g1, ?_⟩
      simpa [knownTypes, ht] using g2
    · have hne : q ≠ t := by rintro rfl; rw [hn] at hq; cases hq
      have hq' : p1.types.lookup q = some l := by
        have hb : (q == t) = false := by simpa using hne
        rw [e, List.lookup_cons, hb]; exact hq
      obtain ⟨g1, g2⟩ := ih e2 hq'
      refine ⟨g1, ?_⟩
      rw [show x :: ops = [x] ++ ops from rfl, knownTypes_append]
      simpa [knownTypes, ht, hne] using g2

/-- At the end there is a search order for every class. -/
theorem orders_exist (ops : List Op) : ∀ {p p' : Py}, p.execAll ops = some p' → ∀ op ∈ ops, ∀ q, op.type? = some q →
    linearize p'.order q op.bases = some (p'.order q) := by
  induction ops with
  | nil => intro p p' _ op h; cases h
  | cons x ops ih =>
    intro p p' h op hop q hq
    obtain ⟨p1, e1, e2⟩ := execAll_cons h
    rcases List.mem_cons.1 hop with rfl | hop
    · rcases exec_types e1 with ⟨ht, _⟩ | ⟨t, l', ht, hn, e, hl, hb⟩
      · rw [ht] at hq; cases hq
      · rw [ht] at hq
        cases hq
        have hkeep : ∀ b l, p.types.lookup b = some l → p'.types.lookup b = some l := fun b l hb => (types_kept (op :: ops) h hb).1
        have hq' : p'.types.lookup q = some l' := (types_kept ops e2 (by rw [e, List.lookup_cons]; simp)).1
        have hmap : op.bases.map p'.order = op.bases.map p.order := by
          apply List.map_congr_left
          intro b hm
          obtain ⟨l, hl⟩ := Option.isSome_iff_exists.1 (hb b hm)
          rw [Py.order, Py.order, hl, hkeep b l hl]
        unfold Spec.linearize at hl ⊢
        rw [hmap, hl, Py.order, hq']
        rfl
    · exact ih e2 op hop q hq

/-- No type is made known twice. -/
theorem types_once (ops : List Op) : ∀ {p p' : Py}, p.execAll ops = some p' → (knownTypes ops).Nodup := by
  induction ops with
  | nil => intro p p' _; simp [knownTypes]
  | cons x ops ih =>
    intro p p' h
    obtain ⟨p1, e1, e2⟩ := execAll_cons h
    rw [show x :: ops = [x] ++ ops from rfl, knownTypes_append]
    rcases exec_types e1 with ⟨ht, _⟩ | ⟨t, l', ht, hn, e, _⟩
    · simpa [knownTypes, ht] using ih e2
    · have h1 : knownTypes [x] = [t] := by simp [knownTypes, ht]
      rw [h1, List.singleton_append, List.nodup_cons]
      exact ⟨(types_kept ops e2 (l := l') (by rw [e, List.lookup_cons]; simp)).2, ih e2⟩

/-- The modules of all calls exist. -/
theorem modules_exist (ops : List Op) : ∀ {p p' : Py}, p.execAll ops = some p' → ∀ op ∈ ops, ∀ ns, op.scope = .module ns → ns ∈ p.modules := by
  induction ops with
  | nil => intro p p' _ op h; cases h
  | cons x ops ih =>
    intro p p' h op hop ns hs
    obtain ⟨p1, e1, e2⟩ := execAll_cons h
    obtain ⟨g1, g2⟩ := exec_scope e1
    rcases List.mem_cons.1 hop with rfl | hop
    · rw [hs, Py.has, List.contains_iff_mem] at g2
      exact g2
    · rw [← g1]; exact ih e2 op hop ns hs

theorem makeModules_modules {pairs : List (Str × Str)} : ∀ {p p' : Py}, makeModules p pairs = some p' → ∀ ns ∈ p'.modules, ns ∈ p.modules ∨
    ∃ x ∈ pairs, ns = if x.1 = [] then x.2 else x.1 ++ c!"::" ++ x.2 := by
  induction pairs with
  | nil => intro p p' h ns hn; cases h; exact .inl hn
  | cons x pairs ih =>
    intro p p' h ns hn
    obtain ⟨parent, n⟩ := x
    rw [makeModules] at h
    split at h
    · rcases ih h ns hn with h' | ⟨x, hx, e⟩
      · rcases List.mem_cons.1 h' with h' | h'
        · exact .inr ⟨(parent, n), by simp, h'⟩
        · exact .inl h'
      · exact .inr ⟨x, by simp [hx], e⟩
    · cases h

theorem importModule_some {pairs : List (Str × Str)} {ops : List Op} {p : Py} (h : importModule pairs ops = some p) :
    ∃ p0, makeModules ⟨[[]], [], []⟩ pairs = some p0 ∧ p0.execAll ops = some p := by
  unfold importModule at h
  split at h
  · cases h
  · exact ⟨_, by assumption, h⟩

end Binder
