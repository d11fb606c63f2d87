import Verif.Props.Fields

/-!
# C81: methods that hide data members
-/

namespace Binder

open Cxx Spec

theorem execAll_parts (a b : List Op) : ∀ {p p' : Py}, p.execAll (a ++ b) = some p' → ∃ p1, p.execAll a = some p1 ∧ p1.execAll b = some p' := by
  induction a with
  | nil => intro p p' h; exact ⟨p, rfl, h⟩
  | cons x a ih =>
    intro p p' h
    obtain ⟨p1, h1, h2⟩ := execAll_cons h
    obtain ⟨p2, h3, h4⟩ := ih h2
    exact ⟨p2, by rw [Py.execAll, h1]; exact h3, h4⟩

/-- A name that nothing binds keeps its meaning. -/
theorem own_kept (ops : List Op) : ∀ {p p' : Py} {s : Scope} {n : Str}, p.execAll ops = some p' →
    (∀ op ∈ ops, ∀ kind, ((s, n), kind) ∉ op.binds) → p'.own s n = p.own s n := by
  induction ops with
  | nil => intro p p' s n h _; cases h; rfl
  | cons x ops ih =>
    intro p p' s n h hb
    obtain ⟨p1, h1, h2⟩ := execAll_cons h
    rw [ih h2 fun op hop => hb op (List.mem_cons_of_mem _ hop)]
    rcases exec_own h1 s n with ⟨kind, _, hk⟩ | ⟨_, e⟩
    · exact absurd hk (hb x List.mem_cons_self kind)
    · exact e

/-- A known type keeps its search order. -/
theorem order_stays (ops : List Op) : ∀ {p p' : Py} {q : Str} {l : List Str}, p.execAll ops = some p' → p.types.lookup q = some l →
    p'.types.lookup q = some l := by
  induction ops with
  | nil => intro p p' q l h hl; cases h; exact hl
  | cons x ops ih =>
    intro p p' q l h hl
    obtain ⟨p1, h1, h2⟩ := execAll_cons h
    refine ih h2 ?_
    rcases exec_types h1 with ⟨_, e⟩ | ⟨r, l', _, hr, e, _⟩
    · rw [e]; exact hl
    · rw [e, List.lookup_cons]
      have : (q == r) = false := by
        rw [beq_eq_false_iff_ne]
        rintro rfl
        rw [hl] at hr
        cases hr
      rw [this]
      exact hl

/-- A class whose base has a property cannot get a method of that name. -/
theorem hidden_property_fails {p : Py} {a b c d : List Op} {s1 s2 : Scope} {k1 k2 t q n : Str} {m : Bool} (hn : n.head? ≠ some '_')
    (hq : p.own (.type q) n = none) (hnb : ∀ op ∈ a ++ b ++ c, ∀ kind, ((.type q, n), kind) ∉ op.binds)
    (hnt : ∀ op ∈ b ++ c, ∀ kind, ((.type t, n), kind) ∉ op.binds) (h1 : s1 ≠ .type q) (h2 : s1 ≠ .type t) (h3 : s2 ≠ .type q) (h4 : s2 ≠ .type t) (hqt : q ≠ t) :
    p.execAll (.class_ s1 k1 t [] :: (a ++ .property (.type t) n :: (b ++ .class_ s2 k2 q [t] :: (c ++ .function (.type q) n m :: d)))) = none := by
  rw [Option.eq_none_iff_forall_ne_some]
  intro p' h
  obtain ⟨p1, e1, h⟩ := execAll_cons h
  obtain ⟨p2, e2, h⟩ := execAll_parts _ _ h
  obtain ⟨p3, e3, h⟩ := execAll_cons h
  obtain ⟨p4, e4, h⟩ := execAll_parts _ _ h
  obtain ⟨p5, e5, h⟩ := execAll_cons h
  obtain ⟨p6, e6, h⟩ := execAll_parts _ _ h
  obtain ⟨p7, e7, h⟩ := execAll_cons h
  -- the search order of the base
  have t1 : p1.types.lookup t = some [t] := by
    rcases exec_types e1 with ⟨e, _⟩ | ⟨r, l, er, _, e, hl, _⟩
    · cases e
    · simp only [Op.type?, Option.some.injEq] at er
      subst er
      rw [e, List.lookup_cons, beq_self_eq_true]
      simp only [Op.bases] at hl
      have : linearize p.order t [] = some [t] := rfl
      rw [this] at hl
      cases hl
      rfl
  have e2' := order_stays a e2 t1
  have e3' : p3.types.lookup t = some [t] := order_stays [.property (.type t) n] (by rw [Py.execAll, e3]; rfl) e2'
  have t4 := order_stays b e4 e3'
  -- and of the derived class
  have t5 : p5.types.lookup q = some [q, t] := by
    rcases exec_types e5 with ⟨e, _⟩ | ⟨r, l, er, _, e, hl, _⟩
    · cases e
    · simp only [Op.type?, Option.some.injEq] at er
      subst er
      rw [e, List.lookup_cons, beq_self_eq_true]
      simp only [Op.bases] at hl
      have : linearize p4.order q [t] = some [q, t] := by
        unfold linearize
        simp only [List.map_cons, List.map_nil, Py.order, t4, Option.getD_some]
        simp [c3, c3Head]
      rw [this] at hl
      cases hl
      rfl
  have t6 := order_stays c e6 t5
  -- what the name stands for
  have o3 : p3.own (.type t) n = some .object := by
    rcases exec_own e3 (.type t) n with ⟨kind, e, hk⟩ | ⟨hno, _⟩
    · simp only [Op.binds, List.mem_singleton, Prod.mk.injEq] at hk
      rw [e, hk.2]
    · exact absurd (by simp [Op.binds]) (hno .object)
  have o6 : p6.own (.type t) n = some .object := by
    rw [own_kept c e6 fun op hop => hnt op (List.mem_append_right _ hop),
      own_kept [.class_ s2 k2 q [t]] (p := p4) (by rw [Py.execAll, e5]; rfl) (by
        intro op hop kind hk
        rw [List.mem_singleton.1 hop] at hk
        simp only [Op.binds, List.mem_singleton, Prod.mk.injEq] at hk
        exact h4 hk.1.1.symm),
      own_kept b e4 fun op hop => hnt op (List.mem_append_left _ hop), o3]
  have oq : p6.own (.type q) n = none := by
    rw [own_kept c e6 fun op hop => hnb op (List.mem_append_right _ hop),
      own_kept [.class_ s2 k2 q [t]] (p := p4) (by rw [Py.execAll, e5]; rfl) (by
        intro op hop kind hk
        rw [List.mem_singleton.1 hop] at hk
        simp only [Op.binds, List.mem_singleton, Prod.mk.injEq] at hk
        exact h3 hk.1.1.symm),
      own_kept b e4 fun op hop => hnb op (List.mem_append_left _ (List.mem_append_right _ hop)),
      own_kept [.property (.type t) n] (p := p2) (by rw [Py.execAll, e3]; rfl) (by
        intro op hop kind hk
        rw [List.mem_singleton.1 hop] at hk
        simp only [Op.binds, List.mem_singleton, Prod.mk.injEq, Scope.type.injEq] at hk
        exact hqt hk.1.1),
      own_kept a e2 fun op hop => hnb op (List.mem_append_left _ (List.mem_append_left _ hop)),
      own_kept [.class_ s1 k1 t []] (p := p) (by rw [Py.execAll, e1]; rfl) (by
        intro op hop kind hk
        rw [List.mem_singleton.1 hop] at hk
        simp only [Op.binds, List.mem_singleton, Prod.mk.injEq] at hk
        exact h1 hk.1.1.symm), hq]
  have hfind : p6.find (.type q) n = some .object := by
    unfold Py.find
    simp only [t6, Option.getD_some, List.findSome?_cons, oq, o6]
  simp only [Py.exec, hfind] at e7
  simp [hn] at e7

theorem importOps_bound {E : Env} {srcs : List Source} (h : ∀ s ∈ srcs, ∀ f ns, Stmt.calls f ns ∉ s.stmts) :
    importOps E srcs = (srcs.flatMap Source.bound).flatMap (opsOf E) := by
  rw [importOps_eq, ← bound_stmts]
  have : ∀ st ∈ srcs.flatMap (·.stmts), ∀ f ns, st ≠ .calls f ns := by
    rintro st hst f ns rfl
    obtain ⟨s, hs, hst⟩ := List.mem_flatMap.1 hst
    exact h s hs f ns hst
  generalize srcs.flatMap (·.stmts) = l at this
  induction l with
  | nil => rfl
  | cons a l ih =>
    rw [List.flatMap_cons, ih fun st hst => this st (List.mem_cons_of_mem _ hst)]
    cases a with
    | binds v => rfl
    | calls f ns => exact absurd rfl (this _ List.mem_cons_self f ns)
    | traces k t => rfl

theorem two_orders {α : Type} {l : List α} {a b : α} (hn : l.Nodup) (hm : ∀ v, v ∈ l ↔ v = a ∨ v = b) (hab : a ≠ b) : l = [a, b] ∨ l = [b, a] := by
  have ha := (hm a).2 (.inl rfl)
  have hb := (hm b).2 (.inr rfl)
  have key : ∀ x y : α, x ≠ y → (∀ v, v ∈ l → v = x ∨ v = y) → y ∈ l → ∀ r, l = x :: r → l = [x, y] := by
    intro x y hxy hall hy r e
    have hr : ∀ v ∈ r, v = y := by
      intro v hv
      rcases hall v (by rw [e]; exact List.mem_cons_of_mem _ hv) with rfl | h
      · rw [e, List.nodup_cons] at hn; exact absurd hv hn.1
      · exact h
    have hyr : y ∈ r := by
      rw [e] at hy
      rcases List.mem_cons.1 hy with h | h
      · exact absurd h.symm hxy
      · exact h
    rw [e, List.nodup_cons] at hn
    cases r with
    | nil => cases hyr
    | cons z r =>
      have hz := hr z List.mem_cons_self
      cases r with
      | nil => rw [e, hz]
      | cons w r =>
        have hw := hr w (by simp)
        have := (List.nodup_cons.1 hn.2).1
        exact absurd (by rw [hz, hw]; simp) this
  cases e : l with
  | nil => rw [e] at ha; cases ha
  | cons z r =>
    rw [← e]
    rcases (hm z).1 (by rw [e]; simp) with rfl | rfl
    · exact .inl (key z b hab (fun v hv => (hm v).1 hv) hb r e)
    · exact .inr (key z a (Ne.symm hab) (fun v hv => ((hm v).1 hv).symm) ha r e)

/-! ## A method that hides a data member -/

/-- The names of the classes below. -/
def Ex.hidingNames : Ty → Str
  | .record 0 => c!"struct A"
  | .record 1 => c!"struct B"
  | .basic _ => c!"int"
  | _ => c!"other"

/-- `struct A { int x; }; struct B : A { int x(); };` -/
def Ex.hiding : TransUnit :=
  { env := withClasses { exampleEnv with tyName := Ex.hidingNames, cfg := { namespacesToBind := [c!""] }, baseRank := _root_.id }
      [{ exampleRecord with members := [.field (Ex.fieldX c!"A")] },
       { exampleRecord with name := c!"B", qname := c!"B", bases := [⟨.pub, false, some 0⟩],
                            members := [.method { Ex.getter 1 c!"B" with name := c!"x", qname := c!"B::x" }] }]
    visits := [.cls 0, .cls 1], inSystem := fun _ => false, depth := 20 }

/-- C81 fails if a method of a class hides a data member of a base, which C++ allows: "Cannot overload existing non-function object". -/
theorem C81_hidden_field_false : ∃ fs', Ex.hiding.Ends (Ex.opts 1000) Ex.fsEmpty (.done fs') ∧
    ∀ srcs pairs, Generated Ex.hiding (Ex.opts 1000) Ex.fsEmpty fs' srcs → importModule pairs (importOps Ex.hiding.E srcs) = none := by
  obtain ⟨fs', h, _⟩ : ∃ fs', Ex.hiding.Ends (Ex.opts 1000) Ex.fsEmpty (.done fs') ∧ (fun _ => true) fs' = true := Ex.ends_after (n := 20) (by decide +kernel)
  refine ⟨fs', h, ?_⟩
  intro srcs pairs hg
  have hr : ∀ v, Reached Ex.hiding v ↔ v = .cls 0 ∨ v = .cls 1 := by
    intro v
    constructor
    · intro hv
      have := (considered_offered hv.considered).1
      simpa [Ex.hiding] using this
    · rintro (rfl | rfl)
      all_goals
        refine Ex.asked (by decide +kernel) True.intro (by decide +kernel) ?_ rfl (by decide +kernel)
        unfold Converted; decide +kernel
  have hl : srcs.flatMap Source.bound = [.cls 0, .cls 1] ∨ srcs.flatMap Source.bound = [.cls 1, .cls 0] := by
    refine two_orders hg.once (fun v => ?_) (by decide)
    rw [hg.exactly, hr]
    exact ⟨fun h => h.1, fun h => ⟨h, rfl⟩⟩
  rw [importOps_bound fun s hs f ns hc => by
    obtain ⟨h | h, _⟩ := hg.calls s hs f ns hc <;> cases h]
  rw [Option.eq_none_iff_forall_ne_some]
  intro p hp
  obtain ⟨p0, h0, hp⟩ := importModule_some hp
  obtain ⟨ht, hrest⟩ := makeModules_state h0
  have hown : p0.own (.type c!"B") c!"x" = none := by
    rcases hrest.2 (.type c!"B") c!"x" with ⟨_, _, _, e, _⟩ | ⟨_, e⟩
    · cases e
    · exact e
  have o0 : opsOf Ex.hiding.E (.cls 0) = [.class_ (.module []) c!"A" c!"A" [], .function (.type c!"A") c!"__init__" true, .property (.type c!"A") c!"x"] := by
    decide +kernel
  have o1 : opsOf Ex.hiding.E (.cls 1) =
      [.class_ (.module []) c!"B" c!"B" [c!"A"], .function (.type c!"B") c!"__init__" true, .function (.type c!"B") c!"x" true] := by decide +kernel
  rcases hl with hl | hl <;> rw [hl] at hp <;> simp only [List.flatMap_cons, List.flatMap_nil, List.append_nil, o0, o1] at hp
  · have := hidden_property_fails (p := p0) (a := [.function (.type c!"A") c!"__init__" true]) (b := [])
      (c := [.function (.type c!"B") c!"__init__" true]) (d := []) (s1 := .module []) (s2 := .module []) (k1 := c!"A") (k2 := c!"B") (t := c!"A") (q := c!"B")
      (n := c!"x") (m := true) (by decide) hown (by simp [Op.binds]) (by simp [Op.binds]) (by simp) (by simp) (by simp) (by simp) (by decide)
    exact absurd (hp.symm.trans this) (by simp)
  · obtain ⟨p1, e1, _⟩ := execAll_cons hp
    rcases exec_types e1 with ⟨e, _⟩ | ⟨_, _, _, _, _, _, hb⟩
    · cases e
    · have := hb c!"A" (by simp [Op.bases])
      rw [ht] at this
      cases this

end Binder
