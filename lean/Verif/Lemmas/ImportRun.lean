import Verif.Spec.Import

/-!
# When the calls of an import succeed
-/

namespace Binder
open Spec

/-- The scope in which a call works. -/
def Spec.Op.scope : Op → Scope
  | .class_ s _ _ _ => s
  | .enum_ s _ _ _ _ => s
  | .property s _ => s
  | .function s _ _ => s
  | .calls s => s
  | .binder ns _ => .module ns

/-- The types known after some calls. -/
def knownTypes (ops : List Op) : List Str := ops.filterMap Op.type?

/-- What a call needs from the calls before it. -/
structure ReadyOp (modules : List Str) (pre : List Op) (op : Op) : Prop where
  module : ∀ ns, op.scope = .module ns → ns ∈ modules
  type : ∀ q, op.scope = .type q → q ∈ knownTypes pre
  bases : ∀ b ∈ op.bases, b ∈ knownTypes pre
  fresh : ∀ q, op.type? = some q → q ∉ knownTypes pre

/-- The interpreter after the calls `pre`. -/
structure After (modules : List Str) (pairs : Str × Str → Prop) (lin : Str → List Str) (pre : List Op) (p : Py) : Prop where
  modules : ∀ ns, ns ∈ p.modules ↔ ns ∈ modules
  types : ∀ q, (p.types.lookup q).isSome = true ↔ q ∈ knownTypes pre
  orders : ∀ q l, p.types.lookup q = some l → l = lin q
  attrs : ∀ k kind, (k, kind) ∈ p.attrs → (∃ op ∈ pre, (k, kind) ∈ op.binds) ∨
    (kind = .object ∧ ∃ x, pairs x ∧ k = (.module x.1, moduleName x.2))

theorem lookup_mem {α β : Type} [BEq α] [LawfulBEq α] {l : List (α × β)} {a : α} {b : β} (h : l.lookup a = some b) : (a, b) ∈ l := by
  induction l with
  | nil => simp at h
  | cons x l ih =>
    obtain ⟨a', b'⟩ := x
    rw [List.lookup_cons] at h
    by_cases e : a == a'
    · rw [e] at h
      simp only [beq_iff_eq] at e
      simp only [Option.some.injEq] at h
      subst h e
      simp
    · simp only [e] at h
      exact List.mem_cons_of_mem _ (ih (by simpa [e] using h))

theorem knownTypes_append (a b : List Op) : knownTypes (a ++ b) = knownTypes a ++ knownTypes b := by simp [knownTypes]

variable {M : List Str} {pairs : Str × Str → Prop} {lin : Str → List Str} {pre : List Op} {p : Py}

theorem After.has (h : After M pairs lin pre p) {op : Op} (hr : ReadyOp M pre op) : p.has op.scope = true := by
  cases e : op.scope with
  | module ns =>
    simp only [Py.has, List.contains_iff_mem]
    exact (h.modules ns).2 (hr.module ns e)
  | type q => exact (h.types q).2 (hr.type q e)

theorem After.unknown (h : After M pairs lin pre p) {op : Op} (hr : ReadyOp M pre op) {q : Str} (hq : op.type? = some q) :
    (p.types.lookup q).isNone = true := by
  have := hr.fresh q hq
  rw [← h.types] at this
  cases e : p.types.lookup q with
  | none => rfl
  | some l => rw [e] at this; simp at this

theorem After.linearize (h : After M pairs lin pre p) {q : Str} {bs : List Str} (hb : ∀ b ∈ bs, b ∈ knownTypes pre) :
    Spec.linearize p.order q bs = Spec.linearize lin q bs := by
  have : bs.map p.order = bs.map lin := by
    apply List.map_congr_left
    intro b hm
    have := (h.types b).2 (hb b hm)
    obtain ⟨l, hl⟩ := Option.isSome_iff_exists.1 this
    rw [Py.order, hl, Option.getD_some, h.orders b l hl]
  rw [Spec.linearize, this, Spec.linearize]

/-- A name that a class or an enumeration takes is free. -/
theorem After.free (h : After M pairs lin pre p) {P : Op → Prop} (hc : Compatible P pairs lin) (hpre : ∀ o ∈ pre, P o) {op : Op} (hop : P op)
    (hr : ReadyOp M pre op) {k : Scope × Str} (hk : op.typeName? = some k) (hq : op.type?.isSome = true) : (p.own k.1 k.2).isNone = true := by
  cases e : p.own k.1 k.2 with
  | none => rfl
  | some kind =>
    rcases h.attrs _ _ (lookup_mem e) with ⟨b, hb, hbk⟩ | ⟨rfl, x, hx, he⟩
    · have := hc.types op b hop (hpre b hb) k hk kind hbk
      subst this
      obtain ⟨q, hq⟩ := Option.isSome_iff_exists.1 hq
      refine absurd ?_ (hr.fresh q hq)
      unfold knownTypes
      exact List.mem_filterMap.2 ⟨b, hb, hq⟩
    · exact absurd (by rw [hk]; exact congrArg some he) (hc.namespaces op hop x hx).1

theorem After.register (h : After M pairs lin pre p) {P : Op → Prop} (hc : Compatible P pairs lin) (hpre : ∀ o ∈ pre, P o) {op : Op} (hop : P op)
    (hr : ReadyOp M pre op) {n q : Str} (hk : op.typeName? = some (op.scope, n)) (hq : op.type? = some q) :
    p.register op.scope n q op.bases = some { p with types := (q, lin q) :: p.types, attrs := ((op.scope, n), .object) :: p.attrs } := by
  unfold Py.register
  have h1 := h.has hr
  have h2 := h.free hc hpre hop hr hk (by rw [hq]; rfl)
  have h3 := h.unknown hr hq
  have h4 : op.bases.all (fun b => (p.types.lookup b).isSome) = true := by
    rw [List.all_eq_true]
    intro b hb
    exact (h.types b).2 (hr.bases b hb)
  rw [if_pos (by simp only [h1, h2, h3, h4, Bool.and_self]), h.linearize hr.bases, hc.linear op hop q hq]
  rfl

theorem knownTypes_snoc_none {op : Op} (h : op.type? = none) : knownTypes (pre ++ [op]) = knownTypes pre := by
  simp [knownTypes, h]

theorem mem_knownTypes_snoc {op : Op} {q t : Str} (h : op.type? = some q) : t ∈ knownTypes (pre ++ [op]) ↔ t ∈ knownTypes pre ∨ t = q := by
  simp [knownTypes, h]

/-- After a call that makes a type known. -/
theorem After.snocType (h : After M pairs lin pre p) {op : Op} {q : Str} (hq : op.type? = some q) (hl : ∃ bs, Spec.linearize lin q bs = some (lin q))
    {attrs : List ((Scope × Str) × Kind)} (ha : ∀ x ∈ attrs, x ∈ op.binds) :
    After M pairs lin (pre ++ [op]) { p with types := (q, lin q) :: p.types, attrs := attrs ++ p.attrs } where
  modules := h.modules
  types := by
    intro t
    rw [mem_knownTypes_snoc hq]
    show ((List.lookup t ((q, lin q) :: p.types)).isSome = true) ↔ _
    rw [List.lookup_cons]
    by_cases e : t == q
    · rw [beq_iff_eq] at e
      simp [e]
    · have e' : t ≠ q := by simpa using e
      simp [e, e', h.types]
  orders := by
    intro t l hl'
    change (List.lookup t ((q, lin q) :: p.types)) = _ at hl'
    rw [List.lookup_cons] at hl'
    by_cases e : t == q
    · simp only [e] at hl'
      rw [beq_iff_eq] at e
      rw [e]
      exact (Option.some.inj hl').symm
    · simp only [e] at hl'
      exact h.orders t l hl'
  attrs := by
    intro k kind hk
    rcases List.mem_append.1 hk with hk | hk
    · exact .inl ⟨op, by simp, ha _ hk⟩
    · rcases h.attrs k kind hk with ⟨o, ho, hb⟩ | h
      · exact .inl ⟨o, by simp [ho], hb⟩
      · exact .inr h

/-- After a call that makes no type known. -/
theorem After.snoc (h : After M pairs lin pre p) {op : Op} (hq : op.type? = none)
    {attrs : List ((Scope × Str) × Kind)} (ha : ∀ x ∈ attrs, x ∈ op.binds) :
    After M pairs lin (pre ++ [op]) { p with attrs := attrs ++ p.attrs } where
  modules := h.modules
  types := by intro t; rw [knownTypes_snoc_none hq]; exact h.types t
  orders := h.orders
  attrs := by
    intro k kind hk
    rcases List.mem_append.1 hk with hk | hk
    · exact .inl ⟨op, by simp, ha _ hk⟩
    · rcases h.attrs k kind hk with ⟨o, ho, hb⟩ | h
      · exact .inl ⟨o, by simp [ho], hb⟩
      · exact .inr h

theorem findSome_object {l : List Str} {f : Str → Option Kind} (h : l.findSome? f = some .object) : ∃ t ∈ l, f t = some .object := by
  obtain ⟨l1, a, l2, e, ha, _⟩ := List.findSome?_eq_some_iff.1 h
  exact ⟨a, by simp [e], ha⟩

/-- The conditions on a function hold. -/
theorem After.function (h : After M pairs lin pre p) {P : Op → Prop} (hc : Compatible P pairs lin) (hpre : ∀ o ∈ pre, P o) {s : Scope} {n : Str}
    {m : Bool} (hop : P (.function s n m)) :
    (p.find s n != some .object || n.head? == some '_') = true ∧ (p.own s n != some (.func (!m))) = true := by
  constructor
  · by_cases hn : n.head? = some '_'
    · simp [hn]
    · rw [Bool.or_eq_true, bne_iff_ne]
      left
      intro hf
      cases s with
      | module ns =>
        rcases h.attrs _ _ (lookup_mem hf) with ⟨b, hb, hbk⟩ | ⟨_, x, hx, he⟩
        · exact hc.functions _ b hop (hpre b hb) ns n m (by simp [Op.binds]) hn hbk
        · injection he with h1 h2
          injection h1 with h1
          subst h1 h2
          exact (hc.namespaces _ hop x hx).2 hn m (by simp [Op.binds])
      | type q =>
        obtain ⟨t, ht, hf⟩ := findSome_object hf
        have ht' : t ∈ q :: lin q := by
          cases e : p.types.lookup q with
          | none => rw [e] at ht; simp at ht; simp [ht]
          | some l => rw [e] at ht; rw [h.orders q l e] at ht; exact List.mem_cons_of_mem _ ht
        rcases h.attrs _ _ (lookup_mem hf) with ⟨b, hb, hbk⟩ | ⟨_, x, hx, he⟩
        · exact hc.methods _ b hop (hpre b hb) q n m (by simp [Op.binds]) hn t ht' hbk
        · injection he with h1 _
          cases h1
  · rw [bne_iff_ne]
    intro hf
    rcases h.attrs _ _ (lookup_mem hf) with ⟨b, hb, hbk⟩ | ⟨hk, _⟩
    · have := hc.overloaded _ b hop (hpre b hb) (s, n) m (!m) (by simp [Op.binds]) hbk
      cases m <;> simp at this
    · cases hk

/-- One call succeeds. -/
theorem After.step (h : After M pairs lin pre p) {P : Op → Prop} (hc : Compatible P pairs lin) (hpre : ∀ o ∈ pre, P o) {op : Op} (hop : P op)
    (hr : ReadyOp M pre op) : ∃ p', p.exec op = some p' ∧ After M pairs lin (pre ++ [op]) p' := by
  cases op with
  | class_ s n q bs =>
    have h1 := h.register hc hpre hop hr (n := n) (q := q) rfl rfl
    refine ⟨_, h1, ?_⟩
    exact h.snocType (op := .class_ s n q bs) (attrs := [((s, n), .object)]) rfl ⟨_, hc.linear _ hop q rfl⟩ (by simp [Op.binds])
  | enum_ s n q vs ex =>
    have h1 := h.register hc hpre hop hr (n := n) (q := q) rfl rfl
    simp only [Op.scope, Op.bases] at h1
    have hv : decide vs.Nodup = true := by simpa using hc.values s n q vs ex hop
    refine ⟨_, by rw [Py.exec, if_pos hv, h1]; rfl, ?_⟩
    cases ex with
    | false =>
      exact h.snocType (op := .enum_ s n q vs false) (attrs := [((s, n), .object)]) rfl ⟨_, hc.linear _ hop q rfl⟩ (by simp [Op.binds])
    | true =>
      have := h.snocType (op := .enum_ s n q vs true) (attrs := vs.map (fun v => ((s, v), Kind.object)) ++ [((s, n), .object)]) rfl
        ⟨_, hc.linear _ hop q rfl⟩ (by
          intro x hx
          simp only [Op.binds, if_true, List.mem_cons]
          rcases List.mem_append.1 hx with hx | hx
          · exact .inr hx
          · exact .inl (List.mem_singleton.1 hx))
      simpa using this
  | property s n =>
    have h1 : p.has s = true := h.has hr
    refine ⟨_, by rw [Py.exec, if_pos h1], ?_⟩
    exact h.snoc (op := .property s n) (attrs := [((s, n), .object)]) rfl (by simp [Op.binds])
  | function s n m =>
    have h2 := h.function hc hpre hop
    have h1 : p.has s = true := h.has hr
    refine ⟨_, by rw [Py.exec, if_pos (by rw [h1, h2.1, h2.2]; rfl)], ?_⟩
    exact h.snoc (op := .function s n m) (attrs := [((s, n), .func m)]) rfl (by simp [Op.binds])
  | calls s =>
    have h1 : p.has s = true := h.has hr
    refine ⟨_, by rw [Py.exec, if_pos h1], ?_⟩
    exact h.snoc (op := .calls s) (attrs := []) rfl (by simp)
  | binder ns q =>
    have h1 : p.modules.contains ns = true := h.has hr
    have h2 := h.unknown hr (q := q) rfl
    have h3 := hc.linear _ hop q rfl
    have h4 : lin q = [q] := by
      simp only [Op.bases, Spec.linearize, List.map_nil, List.nil_append] at h3
      exact (Option.some.inj h3).symm
    refine ⟨_, by rw [Py.exec, if_pos (by rw [h1, h2]; rfl)], ?_⟩
    have := h.snocType (op := .binder ns q) (attrs := []) rfl ⟨_, h3⟩ (by simp)
    rw [h4] at this
    exact this

/-- All calls succeed. -/
theorem After.all {P : Op → Prop} (hc : Compatible P pairs lin) (ops : List Op) : ∀ {pre : List Op} {p : Py}, After M pairs lin pre p →
    (∀ o ∈ pre, P o) → (∀ o ∈ ops, P o) → (∀ a op b, ops = a ++ op :: b → ReadyOp M (pre ++ a) op) →
    ∃ p', p.execAll ops = some p' ∧ After M pairs lin (pre ++ ops) p' := by
  induction ops with
  | nil => intro pre p h _ _ _; exact ⟨p, rfl, by simpa using h⟩
  | cons op ops ih =>
    intro pre p h hpre hops hr
    obtain ⟨p', e, h'⟩ := h.step hc hpre (hops op (by simp)) (by simpa using hr [] op ops rfl)
    obtain ⟨p'', e', h''⟩ := ih h' (by
      intro o ho
      rcases List.mem_append.1 ho with ho | ho
      · exact hpre o ho
      · rw [List.mem_singleton.1 ho]; exact hops op (by simp)) (fun o ho => hops o (by simp [ho])) (by
      intro a o b he
      have := hr (op :: a) o b (by rw [he]; rfl)
      simpa using this)
    exact ⟨p'', by rw [Py.execAll, e]; exact e', by simpa using h''⟩

end Binder
