import Verif.Spec.Surface
import Verif.Lemmas.ImportFail
import Verif.Lemmas.ModuleTable

/-! The state of the interpreter after an import. -/

namespace Binder

open Cxx Spec

theorem c3Head_mem {ls : List (List Str)} {h : Str} (e : c3Head ls = some h) : ∃ l ∈ ls, l.head? = some h := by
  unfold c3Head at e
  obtain ⟨l, hl, e⟩ := List.exists_of_findSome?_eq_some e
  cases l with
  | nil => cases e
  | cons x t =>
    dsimp only at e
    split at e
    · cases e; exact ⟨_, hl, rfl⟩
    · cases e

theorem mem_c3 {n : Nat} : ∀ {ls : List (List Str)} {l : List Str}, c3 n ls = some l → ∀ x, x ∈ l ↔ ∃ l' ∈ ls, x ∈ l' := by
  induction n with
  | zero => intro ls l h; cases h
  | succ n ih =>
    intro ls l h x
    rw [c3] at h
    split at h
    · rename_i he
      cases h
      simp only [List.not_mem_nil, false_iff, not_exists, not_and]
      intro l' hl' hx
      have := List.all_eq_true.1 he l' hl'
      rw [List.isEmpty_iff] at this
      rw [this] at hx
      cases hx
    · split at h
      · cases h
      · rename_i y hy
        obtain ⟨t, ht, rfl⟩ := Option.map_eq_some_iff.1 h
        obtain ⟨l0, hl0, e0⟩ := c3Head_mem hy
        rw [List.mem_cons, ih ht]
        constructor
        · rintro (rfl | ⟨l', hl', hx⟩)
          · exact ⟨l0, hl0, List.mem_of_mem_head? e0⟩
          · obtain ⟨l1, h1, rfl⟩ := List.mem_map.1 hl'
            refine ⟨l1, h1, ?_⟩
            split at hx
            · exact List.mem_of_mem_tail hx
            · exact hx
        · rintro ⟨l', hl', hx⟩
          by_cases hxy : x = y
          · exact .inl hxy
          · refine .inr ⟨_, List.mem_map.2 ⟨l', hl', rfl⟩, ?_⟩
            split
            · rename_i e
              cases l' with
              | nil => cases hx
              | cons a t =>
                rw [List.head?_cons] at e
                cases e
                exact (List.mem_cons.1 hx).resolve_left hxy
            · exact hx

theorem mem_linearize {lin : Str → List Str} {q : Str} {bases l : List Str} (h : linearize lin q bases = some l) (x : Str) :
    x ∈ l ↔ x = q ∨ x ∈ bases ∨ ∃ b ∈ bases, x ∈ lin b := by
  unfold linearize at h
  obtain ⟨t, ht, rfl⟩ := Option.map_eq_some_iff.1 h
  rw [List.mem_cons, mem_c3 ht]
  constructor
  · rintro (h | ⟨l', hl', hx⟩)
    · exact .inl h
    · rcases List.mem_append.1 hl' with hl' | hl'
      · obtain ⟨b, hb, rfl⟩ := List.mem_map.1 hl'
        exact .inr (.inr ⟨b, hb, hx⟩)
      · rw [List.mem_singleton.1 hl'] at hx
        exact .inr (.inl hx)
  · rintro (h | h | ⟨b, hb, hx⟩)
    · exact .inl h
    · exact .inr ⟨bases, by simp, h⟩
    · exact .inr ⟨lin b, by simp; exact .inl ⟨b, hb, rfl⟩, hx⟩

/-- Inheritance between the names in calls. -/
inductive SubOp (P : Op → Prop) : Str → Str → Prop where
  | refl (q : Str) : SubOp P q q
  | step {op : Op} {q b r : Str} : P op → op.type? = some q → b ∈ op.bases → SubOp P b r → SubOp P q r

theorem order_of_lookup {p : Py} {q : Str} {l : List Str} (h : p.types.lookup q = some l) : p.order q = l := by
  unfold Py.order; rw [h]; rfl

theorem order_cons {p p' : Py} {q : Str} {l : List Str} (h : p'.types = (q, l) :: p.types) (x : Str) :
    p'.order x = if x = q then l else p.order x := by
  unfold Py.order
  rw [h, List.lookup_cons]
  by_cases e : x = q
  · subst e; simp
  · have : (x == q) = false := by simpa using e
    rw [this, if_neg e]

theorem order_sub {P : Op → Prop} (ops : List Op) : ∀ {p p' : Py}, p.execAll ops = some p' → (∀ op ∈ ops, P op) →
    (∀ q r, r ∈ p.order q → SubOp P q r) → ∀ q r, r ∈ p'.order q → SubOp P q r := by
  induction ops with
  | nil => intro p p' h _ hp; cases h; exact hp
  | cons op ops ih =>
    intro p p' h hP hp
    obtain ⟨p1, h1, h2⟩ := execAll_cons h
    refine ih h2 (fun o ho => hP o (List.mem_cons_of_mem _ ho)) ?_
    rcases exec_types h1 with ⟨_, e⟩ | ⟨q, l, hq, hnew, e, hl, hb⟩
    · intro q r hr
      unfold Py.order at hr
      rw [e] at hr
      exact hp q r hr
    · intro q' r hr
      rw [order_cons e] at hr
      split at hr
      · rename_i eq
        subst eq
        rcases (mem_linearize hl r).1 hr with rfl | hr | ⟨b, hb, hr⟩
        · exact .refl _
        · exact .step (hP op (by simp)) hq hr (.refl _)
        · exact .step (hP op (by simp)) hq hb (hp b r hr)
      · exact hp q' r hr

theorem order_self (ops : List Op) : ∀ {p p' : Py}, p.execAll ops = some p' → (∀ q, q ∈ p.order q) → ∀ q, q ∈ p'.order q := by
  induction ops with
  | nil => intro p p' h hp; cases h; exact hp
  | cons op ops ih =>
    intro p p' h hp
    obtain ⟨p1, h1, h2⟩ := execAll_cons h
    refine ih h2 ?_
    rcases exec_types h1 with ⟨_, e⟩ | ⟨q, l, hq, hnew, e, hl, hb⟩
    · intro q; unfold Py.order; rw [e]; exact hp q
    · intro q'
      rw [order_cons e]
      split
      · rename_i eq; exact (mem_linearize hl q').2 (.inl eq)
      · exact hp q'

theorem sub_order {ops : List Op} {p p' : Py} (h : p.execAll ops = some p') (hp : ∀ q, q ∈ p.order q) {q r : Str} (hs : SubOp (· ∈ ops) q r) :
    r ∈ p'.order q := by
  induction hs with
  | refl q => exact order_self ops h hp q
  | step hop hq hb _ ih => exact (mem_linearize (orders_exist ops h _ hop _ hq) _).2 (.inr (.inr ⟨_, hb, ih⟩))

/-! ## Names -/

theorem execAll_own (ops : List Op) : ∀ {p p' : Py}, p.execAll ops = some p' → ∀ s n,
    (∃ kind, p'.own s n = some kind ∧ ∃ op ∈ ops, ((s, n), kind) ∈ op.binds) ∨
    ((∀ op ∈ ops, ∀ kind, ((s, n), kind) ∉ op.binds) ∧ p'.own s n = p.own s n) := by
  induction ops with
  | nil => intro p p' h s n; cases h; exact .inr ⟨by simp, rfl⟩
  | cons op ops ih =>
    intro p p' h s n
    obtain ⟨p1, h1, h2⟩ := execAll_cons h
    rcases ih h2 s n with ⟨k, e, o, ho, hk⟩ | ⟨hno, e⟩
    · exact .inl ⟨k, e, o, List.mem_cons_of_mem _ ho, hk⟩
    · rcases exec_own h1 s n with ⟨k, e1, hk⟩ | ⟨hno1, e1⟩
      · exact .inl ⟨k, e.trans e1, op, List.mem_cons_self, hk⟩
      · refine .inr ⟨?_, e.trans e1⟩
        intro o ho
        rcases List.mem_cons.1 ho with rfl | ho
        · exact hno1
        · exact hno o ho

theorem makeModules_state {pairs : List (Str × Str)} : ∀ {p p' : Py}, makeModules p pairs = some p' → p'.types = p.types ∧
    (∀ ns, ns ∈ p'.modules ↔ ns ∈ p.modules ∨ ∃ x ∈ pairs, ns = if x.1 = [] then x.2 else x.1 ++ c!"::" ++ x.2) ∧
    ∀ s n, (p'.own s n = some .object ∧ ∃ x ∈ pairs, s = .module x.1 ∧ n = moduleName x.2) ∨
      ((∀ x ∈ pairs, ¬ (s = .module x.1 ∧ n = moduleName x.2)) ∧ p'.own s n = p.own s n) := by
  induction pairs with
  | nil => intro p p' h; cases h; exact ⟨rfl, by simp, fun s n => .inr ⟨by simp, rfl⟩⟩
  | cons x pairs ih =>
    obtain ⟨a, b⟩ := x
    intro p p' h
    rw [makeModules] at h
    split at h
    · obtain ⟨h1, h2, h3⟩ := ih h
      refine ⟨h1, ?_, ?_⟩
      · intro ns
        rw [h2]
        simp only [List.mem_cons, exists_eq_or_imp]
        constructor
        · rintro ((h | h) | h)
          · exact .inr (.inl h)
          · exact .inl h
          · exact .inr (.inr h)
        · rintro (h | h | h)
          · exact .inl (.inr h)
          · exact .inl (.inl h)
          · exact .inr h
      · intro s n
        rcases h3 s n with ⟨e, y, hy, hk⟩ | ⟨hno, e⟩
        · exact .inl ⟨e, y, List.mem_cons_of_mem _ hy, hk⟩
        · by_cases hk : s = .module a ∧ n = moduleName b
          · refine .inl ⟨?_, (a, b), List.mem_cons_self, hk⟩
            rw [e]
            obtain ⟨rfl, rfl⟩ := hk
            simp [Py.own, List.lookup_cons]
          · refine .inr ⟨?_, ?_⟩
            · intro y hy
              rcases List.mem_cons.1 hy with rfl | hy
              · exact hk
              · exact hno y hy
            · rw [e]
              unfold Py.own
              rw [List.lookup_cons]
              have : ((s, n) == (Scope.module a, moduleName b)) = false := by
                rw [beq_eq_false_iff_ne]
                intro h
                injection h with h1 h2
                exact hk ⟨h1, h2⟩
              rw [this]
    · cases h

theorem execAll_modules (ops : List Op) : ∀ {p p' : Py}, p.execAll ops = some p' → p'.modules = p.modules := by
  induction ops with
  | nil => intro p p' h; cases h; rfl
  | cons op ops ih =>
    intro p p' h
    obtain ⟨p1, h1, h2⟩ := execAll_cons h
    exact (ih h2).trans (exec_scope h1).1

/-! ## The classes registered -/

theorem item_bases {E : Env} {i : Nat} {s : Scope} {it : Item} {op : Op} (h : op ∈ itemOps E i s it) : op.bases = [] := by
  cases it <;> simp only [itemOps, overloads, List.mem_cons, List.mem_singleton, List.not_mem_nil, List.mem_map, or_false] at h
  case implicitDefault => subst h; rfl
  case defaultCtor => subst h; rfl
  case copyCtor t =>
    rcases h with h | h
    · subst h; rfl
    · split at h
      · rw [List.mem_singleton] at h; subst h; rfl
      · cases h
  case ctor => obtain ⟨_, _, h⟩ := h; subst h; rfl
  case «enum» => subst h; rfl
  case field => subst h; rfl
  case method => obtain ⟨_, _, h⟩ := h; subst h; rfl
  case repr => subst h; rfl
  case addOn => subst h; rfl

theorem classOps_bases (E : Env) (n : Nat) : ∀ (outer : Scope) (i : Nat) (op : Op), op ∈ classOpsF E n outer i → ∀ b ∈ op.bases,
    ∃ k ∈ registersF E n i, E.cfg.binders (stdName E (E.cls k).qname) = none ∧ op.type? = some (classQualifiedName E (E.cls k)) ∧
      ∃ j ∈ boundBases E (E.cls k), b = classQualifiedName E (E.cls j) := by
  induction n with
  | zero => intro outer i op h; cases h
  | succ n ih =>
    intro outer i op h b hb
    simp only [classOpsF] at h
    rw [registersF]
    split at h
    · cases h
    · rename_i hbi
      rw [if_neg hbi]
      split at h
      · rw [List.mem_singleton] at h; subst h; cases hb
      · rename_i hx
        rw [if_neg hx]
        simp only [List.mem_append] at h
        rcases h with (h | h) | h
        · split at h
          · cases h
          · rename_i ha
            rw [List.mem_singleton] at h
            subst h
            obtain ⟨j, hj, e⟩ := List.mem_map.1 (show b ∈ (boundBases E (E.cls i)).map _ from hb)
            exact ⟨i, by simp [ha], by simpa using hx, rfl, j, hj, e.symm⟩
        · obtain ⟨it, _, h⟩ := List.mem_flatMap.1 h
          rw [item_bases h] at hb; cases hb
        · obtain ⟨k, hk, h⟩ := List.mem_flatMap.1 h
          obtain ⟨m, hm, r⟩ := ih _ k op h b hb
          exact ⟨m, List.mem_append_right _ (List.mem_flatMap.2 ⟨k, hk, hm⟩), r⟩

theorem classOps_registers (E : Env) (n : Nat) : ∀ (outer : Scope) (i k : Nat), k ∈ registersF E n i →
    E.cfg.binders (stdName E (E.cls k).qname) = none →
    ∃ s name, Op.class_ s name (classQualifiedName E (E.cls k)) ((boundBases E (E.cls k)).map fun j => classQualifiedName E (E.cls j)) ∈ classOpsF E n outer i := by
  induction n with
  | zero => intro outer i k h; cases h
  | succ n ih =>
    intro outer i k h hx
    rw [registersF] at h
    simp only [classOpsF]
    split at h
    · cases h
    · rename_i hbi
      rw [if_neg hbi]
      split at h
      · rename_i hx'
        rw [List.mem_singleton] at h
        subst h
        rw [hx] at hx'
        cases hx'
      · rename_i hx'
        rw [if_neg hx']
        rcases List.mem_append.1 h with h | h
        · split at h
          · cases h
          · rename_i ha
            rw [List.mem_singleton] at h
            subst h
            rw [if_neg ha]
            exact ⟨_, _, List.mem_append_left _ (List.mem_append_left _ (List.mem_singleton.2 rfl))⟩
        · obtain ⟨m, hm, h⟩ := List.mem_flatMap.1 h
          obtain ⟨s, name, h⟩ := ih (if (E.cls i).isAnonymous then outer else .type (classQualifiedName E (E.cls i))) m k h hx
          exact ⟨s, name, List.mem_append_right _ (List.mem_flatMap.2 ⟨m, hm, h⟩)⟩

end Binder
