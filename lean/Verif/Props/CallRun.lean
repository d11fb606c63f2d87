import Verif.Props.Call
import Verif.Props.Surface
import Verif.Spec.CallRun

/-!
# C93: calls of the functions of an imported module
-/

namespace Binder

open Cxx Spec

/-- The call of pybind11 for a function. -/
def defOp (s : Scope) (n : Str) (b : Binding) : Op := .function s n (match s with | .module _ => false | .type _ => !b.F.isStatic)

theorem filter_overloads (F : Func) (k : Nat) (op : Op) (s : Scope) (n : Str) :
    (overloads F k op).filter (Op.defines s n) = if op.defines s n then overloads F k op else [] := by
  unfold overloads
  generalize arities k F.params.length = l
  induction l with
  | nil => simp
  | cons a l ih =>
    rw [List.map_cons, List.filter_cons, ih]
    split <;> simp_all

/-- The functions with the name, as calls. -/
def chainOps (E : Env) (s : Scope) (n : Str) (l : List (Scope × Binding)) : List Op :=
  ((l.filter fun x => decide (x.1 = s) && decide (boundName E x.2.F = n)).map (·.2)).flatMap fun b => overloads b.F (firstArity b.F) (defOp s n b)

theorem chainOps_append (E : Env) (s : Scope) (n : Str) (a b : List (Scope × Binding)) : chainOps E s n (a ++ b) = chainOps E s n a ++ chainOps E s n b := by
  simp [chainOps]

theorem chainOps_flatMap {α : Type} (E : Env) (s : Scope) (n : Str) (l : List α) (f : α → List (Scope × Binding)) :
    chainOps E s n (l.flatMap f) = l.flatMap fun a => chainOps E s n (f a) := by
  induction l with
  | nil => rfl
  | cons a l ih => rw [List.flatMap_cons, chainOps_append, ih]; rfl

theorem one_chain (E : Env) (s : Scope) (n : Str) (t : Scope) (m : Bool) (b : Binding) (hm : defOp t (boundName E b.F) b = .function t (boundName E b.F) m) :
    (overloads b.F (firstArity b.F) (.function t (boundName E b.F) m)).filter (Op.defines s n) = chainOps E s n [(t, b)] := by
  rw [filter_overloads, ← hm]
  have hd : (defOp t (boundName E b.F) b).defines s n = (decide (t = s) && decide (boundName E b.F = n)) := by rw [hm]; rfl
  rw [hd]
  unfold chainOps
  rw [List.filter_cons, List.filter_nil]
  by_cases hs : (decide (t = s) && decide (boundName E b.F = n)) = true
  · rw [if_pos hs, if_pos hs]
    rw [Bool.and_eq_true, decide_eq_true_eq, decide_eq_true_eq] at hs
    obtain ⟨rfl, rfl⟩ := hs
    simp
  · rw [if_neg hs, if_neg hs]; simp

theorem items_chain (E : Env) (i : Nat) {t s : Scope} {n : Str} (ht : ∃ q, t = .type q) (h1 : n ≠ c!"__init__") (h2 : n ≠ c!"__str__") (l : List Item) :
    (l.flatMap (itemOps E i t)).filter (Op.defines s n) =
      chainOps E s n (l.filterMap (itemBinding t)) := by
  obtain ⟨q, rfl⟩ := ht
  induction l with
  | nil => rfl
  | cons x l ih =>
    rw [List.flatMap_cons, List.filter_append, ih, List.filterMap_cons]
    have hi : (Op.function (.type q) c!"__init__" true).defines s n = false := by simp only [Op.defines]; simp [h1.symm]
    cases x with
    | method f parent lam =>
      simp only [itemOps, itemBinding]
      rw [← List.singleton_append (l := List.filterMap _ l), chainOps_append, ← one_chain E s n (.type q) (!f.isStatic) ⟨f, parent, lam⟩ rfl]
    | ctor t => simp only [itemOps, filter_overloads, hi]; simp [itemBinding]
    | copyCtor t =>
      simp only [itemOps, itemBinding]
      rw [List.filter_eq_nil_iff.2]
      · rfl
      · intro a ha
        rcases List.mem_cons.1 ha with rfl | ha
        · simp [hi]
        · split at ha
          · rw [List.mem_singleton] at ha; subst ha; simp [hi]
          · cases ha
    | implicitDefault => simp [itemOps, itemBinding, hi]
    | defaultCtor t => simp [itemOps, itemBinding, hi]
    | repr F =>
      have : (Op.function (.type q) c!"__str__" true).defines s n = false := by simp only [Op.defines]; simp [h2.symm]
      simp [itemOps, itemBinding, this]
    | enum e => simp [itemOps, itemBinding, enumOp, Op.defines]
    | field o f => simp [itemOps, itemBinding, Op.defines]
    | addOn f => simp [itemOps, itemBinding, Op.defines]

theorem class_chain (E : Env) {s : Scope} {n : Str} (h1 : n ≠ c!"__init__") (h2 : n ≠ c!"__str__") (k : Nat) : ∀ (outer : Scope) (i : Nat), (∃ q, outer = .type q) →
    (classOpsF E k outer i).filter (Op.defines s n) = chainOps E s n (classBindingsF E k outer i) := by
  induction k with
  | zero => intro outer i _; rfl
  | succ k ih =>
    intro outer i ho
    unfold classOpsF classBindingsF
    simp only
    split
    · rfl
    · split
      · simp [Op.defines, chainOps]
      · have ht : ∃ q, (if (E.cls i).isAnonymous then outer else .type (classQualifiedName E (E.cls i))) = .type q := by
          split
          · exact ho
          · exact ⟨_, rfl⟩
        rw [List.filter_append, List.filter_append, items_chain E i ht h1 h2, chainOps_append, chainOps_flatMap, List.filter_flatMap]
        have : ∀ l : List Nat, (l.flatMap fun a => (classOpsF E k (if (E.cls i).isAnonymous then outer else .type (classQualifiedName E (E.cls i))) a).filter (Op.defines s n)) =
            l.flatMap fun a => chainOps E s n (classBindingsF E k (if (E.cls i).isAnonymous then outer else .type (classQualifiedName E (E.cls i))) a) := by
          intro l; congr 1; funext a; exact ih _ a ht
        rw [this]
        split <;> simp [Op.defines]

theorem visit_chain (E : Env) {s : Scope} {n : Str} (h1 : n ≠ c!"__init__") (h2 : n ≠ c!"__str__") (v : Visit) (hv : Standalone E v) :
    (opsOf E v).filter (Op.defines s n) = chainOps E s n (bindingsOf E v) := by
  cases v with
  | fn F =>
    have hm : F.method = none := hv.1
    have hb : boundName E F = pythonFunctionName F := by simp [boundName, Func.isStatic, hm]
    have h := one_chain E s n (.module (nsOf E F.qname F.name)) false ⟨F, none, false⟩ rfl
    rw [hb] at h
    exact h
  | cls i => exact class_chain E h1 h2 _ _ i ⟨_, rfl⟩
  | enm i => simp [opsOf, enumOp, Op.defines, bindingsOf, chainOps]

theorem stmts_chain (E : Env) {s : Scope} {n : Str} (h1 : n ≠ c!"__init__") (h2 : n ≠ c!"__str__") (l : List Stmt)
    (hl : ∀ v ∈ l.filterMap Stmt.bound, Standalone E v) :
    (l.flatMap (Stmt.ops E)).filter (Op.defines s n) = chainOps E s n ((l.filterMap Stmt.bound).flatMap (bindingsOf E)) := by
  induction l with
  | nil => rfl
  | cons a l ih =>
    rw [List.flatMap_cons, List.filter_append]
    cases a with
    | binds v =>
      rw [ih fun w hw => hl w (List.mem_cons_of_mem _ hw)]
      show List.filter _ (opsOf E v) ++ _ = chainOps E s n ((v :: l.filterMap Stmt.bound).flatMap (bindingsOf E))
      rw [visit_chain E h1 h2 v (hl v List.mem_cons_self), List.flatMap_cons, chainOps_append]
    | calls f ns => rw [ih hl]; rfl
    | traces k t => rw [ih hl]; rfl

theorem reached_standalone {U : TransUnit} {v : Visit} (h : Reached U v) : Standalone U.E v :=
  (offered_iff U v).1 (considered_offered h.considered).2

theorem import_chain {U : TransUnit} {o : Opts} {fs fs' : FS} {srcs : List Source} (hg : Generated U o fs fs' srcs) {s : Scope} {n : Str}
    (h1 : n ≠ c!"__init__") (h2 : n ≠ c!"__str__") : (importOps U.E srcs).filter (Op.defines s n) =
      (bindingsIn U.E srcs s n).flatMap fun b => overloads b.F (firstArity b.F) (defOp s n b) := by
  rw [importOps_eq, stmts_chain U.E h1 h2, bound_stmts]
  · rfl
  · intro v hv
    rw [bound_stmts] at hv
    exact reached_standalone ((hg.exactly v).1 hv).1

theorem mem_bindingsIn {E : Env} {srcs : List Source} {s : Scope} {n : Str} {b : Binding} :
    b ∈ bindingsIn E srcs s n ↔ (∃ v ∈ srcs.flatMap Source.bound, (s, b) ∈ bindingsOf E v) ∧ boundName E b.F = n := by
  unfold bindingsIn
  rw [List.mem_map]
  constructor
  · rintro ⟨⟨t, b'⟩, h, rfl⟩
    rw [List.mem_filter, List.mem_flatMap, Bool.and_eq_true, decide_eq_true_eq, decide_eq_true_eq] at h
    obtain ⟨⟨v, hv, h⟩, rfl, e⟩ := h
    exact ⟨⟨v, hv, h⟩, e⟩
  · rintro ⟨⟨v, hv, h⟩, e⟩
    exact ⟨(s, b), List.mem_filter.2 ⟨List.mem_flatMap.2 ⟨v, hv, h⟩, by simp [e]⟩, rfl⟩

theorem mem_classBindings (E : Env) (k : Nat) : ∀ (outer : Scope) (i : Nat) (s : Scope) (b : Binding), (s, b) ∈ classBindingsF E k outer i →
    ∃ j, Item.method b.F b.parent b.lam ∈ classItems E j ∧ E.cfg.binders (stdName E (E.cls j).qname) = none ∧
      ((E.cls j).isAnonymous = false → s = .type (classQualifiedName E (E.cls j)) ∧ j ∈ registersF E k i) ∧
      (s = outer ∨ ∃ q, s = .type q) := by
  induction k with
  | zero => intro outer i s b h; cases h
  | succ k ih =>
    intro outer i s b h
    unfold classBindingsF at h
    unfold registersF
    simp only at h
    split at h
    · cases h
    · rename_i hbi
      split at h
      · cases h
      · rename_i hx
        rw [if_neg hbi, if_neg hx]
        rcases List.mem_append.1 h with h | h
        · obtain ⟨it, hit, e⟩ := List.mem_filterMap.1 h
          cases it <;> simp only [itemBinding, Option.some.injEq, Prod.mk.injEq, reduceCtorEq] at e
          obtain ⟨rfl, rfl⟩ := e
          refine ⟨i, hit, by simpa using hx, ?_, ?_⟩
          · intro ha; simp [ha]
          · split
            · exact .inl rfl
            · exact .inr ⟨_, rfl⟩
        · obtain ⟨m, hm, h⟩ := List.mem_flatMap.1 h
          obtain ⟨j, h1, h2, h3, h4⟩ := ih _ _ _ _ h
          refine ⟨j, h1, h2, fun ha => ⟨(h3 ha).1, List.mem_append_right _ (List.mem_flatMap.2 ⟨m, hm, (h3 ha).2⟩)⟩, ?_⟩
          rcases h4 with rfl | h4
          · split
            · exact .inl rfl
            · exact .inr ⟨_, rfl⟩
          · exact .inr h4

theorem classBindings_mem (E : Env) (k : Nat) : ∀ (outer : Scope) (i j : Nat), j ∈ registersF E k i →
    E.cfg.binders (stdName E (E.cls j).qname) = none → ∀ b : Binding, Item.method b.F b.parent b.lam ∈ classItems E j →
    (.type (classQualifiedName E (E.cls j)), b) ∈ classBindingsF E k outer i := by
  induction k with
  | zero => intro outer i j h; cases h
  | succ k ih =>
    intro outer i j h hx b hb
    rw [registersF] at h
    simp only [classBindingsF]
    split at h
    · cases h
    · rename_i hbi
      rw [if_neg hbi]
      split at h
      · rename_i hx'
        rw [List.mem_singleton] at h
        subst h
        rw [hx] at hx'
        cases hx'
      · rename_i hx'
        rw [if_neg hx']
        rcases List.mem_append.1 h with h | h
        · split at h
          · cases h
          · rename_i ha
            rw [List.mem_singleton] at h
            subst h
            rw [if_neg ha]
            exact List.mem_append_left _ (List.mem_filterMap.2 ⟨_, hb, rfl⟩)
        · obtain ⟨m, hm, h⟩ := List.mem_flatMap.1 h
          exact List.mem_append_right _ (List.mem_flatMap.2 ⟨m, hm, ih _ m j h hx b hb⟩)

/-- C93. The functions that a call of `n` in the module of a namespace is about: the functions that are bound, of this namespace and with this
Python name. -/
theorem C93_functions (U : TransUnit) (o : Opts) (fs fs' : FS) (srcs : List Source) (hg : Generated U o fs fs' srcs) (ns n : Str) (b : Binding) :
    b ∈ bindingsIn U.E srcs (.module ns) n ↔ Reached U (.fn b.F) ∧ U.E.cfg.binderForNamespaces ns = none ∧ namespaceOf U.E (.fn b.F) = ns ∧
      pythonFunctionName b.F = n ∧ b.parent = none ∧ b.lam = false := by
  have hb : ∀ F, Reached U (.fn F) → boundName U.E F = pythonFunctionName F := by
    intro F hF
    have : F.method = none := (reached_standalone hF).1
    simp [boundName, Func.isStatic, this]
  rw [mem_bindingsIn]
  constructor
  · rintro ⟨⟨v, hv, h⟩, e⟩
    have hr := (hg.exactly v).1 hv
    cases v with
    | fn F =>
      simp only [bindingsOf, List.mem_singleton, Prod.mk.injEq, Scope.module.injEq] at h
      obtain ⟨rfl, rfl⟩ := h
      exact ⟨hr.1, hr.2, rfl, by rw [← e, hb F hr.1], rfl, rfl⟩
    | cls i =>
      obtain ⟨_, _, _, _, h | ⟨q, h⟩⟩ := mem_classBindings U.E _ _ _ _ _ h <;> cases h
    | enm i => cases h
  · obtain ⟨F, parent, lam⟩ := b
    rintro ⟨h1, h2, rfl, rfl, rfl, rfl⟩
    exact ⟨⟨.fn F, (hg.exactly _).2 ⟨h1, h2⟩, List.mem_singleton.2 rfl⟩, hb F h1⟩

/-- C93. The functions that a call of `n` in a Python class is about are methods of the C++ class (see `C48_methods`), or of an anonymous
class in it; every method of the C++ class with this Python name is among them. -/
theorem C93_methods (U : TransUnit) (o : Opts) (fs fs' : FS) (srcs : List Source) (hg : Generated U o fs fs' srcs) (q n : Str) (b : Binding) :
    (b ∈ bindingsIn U.E srcs (.type q) n → boundName U.E b.F = n ∧ ∃ i, Item.method b.F b.parent b.lam ∈ classItems U.E i ∧
      ((U.E.cls i).isAnonymous = false → q = classQualifiedName U.E (U.E.cls i) ∧ HasClass U i)) ∧
    (∀ i, HasClass U i → q = classQualifiedName U.E (U.E.cls i) → Item.method b.F b.parent b.lam ∈ classItems U.E i → boundName U.E b.F = n →
      b ∈ bindingsIn U.E srcs (.type q) n) := by
  constructor
  · rw [mem_bindingsIn]
    rintro ⟨⟨v, hv, h⟩, e⟩
    refine ⟨e, ?_⟩
    have hr := (hg.exactly v).1 hv
    cases v with
    | fn F => simp [bindingsOf] at h
    | enm i => cases h
    | cls i =>
      obtain ⟨j, h1, h2, h3, _⟩ := mem_classBindings U.E _ _ _ _ _ h
      refine ⟨j, h1, fun ha => ?_⟩
      obtain ⟨h4, h5⟩ := h3 ha
      cases h4
      exact ⟨rfl, ⟨.cls i, hr.1, hr.2, h5⟩, h2⟩
  · intro i hi e hb hn
    obtain ⟨⟨v, hv, hns, hreg⟩, hx⟩ := hi
    rw [e, mem_bindingsIn]
    refine ⟨⟨v, (hg.exactly v).2 ⟨hv, hns⟩, ?_⟩, hn⟩
    cases v with
    | fn F => cases hreg
    | enm i => cases hreg
    | cls k => exact classBindings_mem U.E _ _ k i hreg hx b hb

theorem binding_instance {U : TransUnit} (hw : U.E.Wellfounded) {o : Opts} {fs fs' : FS} {srcs : List Source} (hg : Generated U o fs fs' srcs)
    {s : Scope} {n : Str} {b : Binding} (hb : b ∈ bindingsIn U.E srcs s n) : defOp s n b = .function s n b.F.isInstance := by
  cases s with
  | module ns =>
    have hm : b.F.method = none := (reached_standalone ((C93_functions U o fs fs' srcs hg ns n b).1 hb).1).1
    simp [defOp, Func.isInstance, hm]
  | type q =>
    obtain ⟨_, i, hi, _⟩ := (C93_methods U o fs fs' srcs hg q n b).1 hb
    have : b.F.method.isSome = true := by
      obtain ⟨⟨k, _, h | h⟩, _⟩ := (C48_methods U.E hw i b.F).1 ⟨_, _, hi⟩
      · obtain ⟨m, hm⟩ : ∃ m, b.F.method = some m := by
          cases hf : b.F.method with
          | some m => exact ⟨m, rfl⟩
          | none =>
            exfalso
            revert h
            simp [PublicMethod, Func.access, hf]
        rw [hm]; rfl
      · exact h.2
    obtain ⟨m, hm⟩ := Option.isSome_iff_exists.1 this
    simp [defOp, Func.isInstance, Func.isStatic, hm]

/-- C93. After the import, a name in a scope that only functions have stands for a Python function, made of the `def` statements of the bound
functions with that name in that scope, and of nothing else. A call of it, with the object if they are methods, that reaches one of them
gives it exactly the arguments of the call (see `C91_call_partial`); and each call that is possible for one of them is accepted. -/
theorem C93_call_partial (U : TransUnit) (hw : U.E.Wellfounded) (o : Opts) (fs fs' : FS) (srcs : List Source) (hg : Generated U o fs fs' srcs)
    (pairs : List (Str × Str)) (p : Py) (h : importModule pairs (importOps U.E srcs) = some p) (s : Scope) (n : Str)
    (h1 : n ≠ c!"__init__") (h2 : n ≠ c!"__str__") (hobj : ∀ op, Made U op → ((s, n), .object) ∉ op.binds)
    (hmod : n.head? = some '_' → ∀ x ∈ pairs, ¬ (s = .module x.1 ∧ n = moduleName x.2)) (Bs : List Binding) (hBs : Bs = bindingsIn U.E srcs s n) (hne : Bs ≠ []) :
    ∃ (m : Bool) (defs : Binding → List Def), p.own s n = some (.func m) ∧
      (importOps U.E srcs).filter (Op.defines s n) = Bs.flatMap (fun b => (defs b).map fun _ => .function s n m) ∧
      (∀ b ∈ Bs, b.F.isInstance = m ∧ (∀ x ∈ defs b, x.pyName = n) ∧ ∀ module, ∃ comment,
        bindFunctionText U.E module b.F b.parent b.lam = comment ++ ((defs b).map fun x => module ++ x.text ++ c!"\n").flatten) ∧
      ∀ (V : Type) (can : Bool → Option Param → V → Bool) (obj : List V) (c : PyCall V), c.Sane →
        (obj.length = if m then 1 else 0) → (∀ p v, can false p v = true → can true p v = true) → (∀ o ∈ obj, can false none o = true) →
        let reached := dispatch can (Bs.flatMap fun b => (defs b).map fun x => ((b, x), x.overload b.F)) ⟨obj ++ c.pos, c.kw⟩
        (∀ b x ws, reached = some ((b, x), ws) → b ∈ Bs ∧ x ∈ defs b ∧ ∃ vs f, ws = obj ++ vs ∧
          Gives (b.F.params.map (·.name)) c vs ∧ (DefaultsLast b.F.params → ∀ p ∈ b.F.params.drop vs.length, p.hasDefault = true) ∧
          CalledAs U.E b.F b.parent f ∧ Does x.callable ws ⟨obj.head?, f, vs⟩ ∧
          (∀ y ∈ (b.F.params.map some).zip vs, can true y.1 y.2 = true) ∧
          ((∃ y ∈ (b.F.params.map some).zip vs, can false y.1 y.2 = false) → ∀ g ∈ Bs, ∀ us, Possible g.F c us →
            ∃ y ∈ (g.F.params.map some).zip us, can false y.1 y.2 = false)) ∧
        (∀ b ∈ Bs, ∀ vs, Possible b.F c vs → (∀ y ∈ (b.F.params.map some).zip vs, can true y.1 y.2 = true) →
          reached.isSome = true ∧ (Bs = [b] → ∃ x, reached = some ((b, x), obj ++ vs))) := by
  subst hBs
  obtain ⟨b0, hb0⟩ := List.exists_mem_of_ne_nil _ hne
  have hchain := import_chain hg h1 h2 (s := s)
  have hop : ∀ b ∈ bindingsIn U.E srcs s n, .function s n b.F.isInstance ∈ importOps U.E srcs := by
    intro b hb
    have hin : Op.function s n b.F.isInstance ∈ (importOps U.E srcs).filter (Op.defines s n) := ?_
    · exact (List.mem_filter.1 hin).1
    rw [hchain, List.mem_flatMap]
    refine ⟨b, hb, ?_⟩
    rw [binding_instance hw hg hb]
    unfold overloads
    rw [List.mem_map]
    refine ⟨b.F.params.length, ?_, rfl⟩
    have := firstArity_le b.F
    unfold arities
    rw [List.mem_range'_1]
    omega
  have hmade : ∀ m, .function s n m ∈ importOps U.E srcs ↔ Made U (.function s n m) := fun m => mem_importOps hg _ (by simp)
  have hobj' : ∀ op ∈ importOps U.E srcs, ((s, n), .object) ∉ op.binds := by
    intro op hop hb
    exact hobj op ((mem_importOps hg op (by rintro s' rfl; cases hb)).1 hop) hb
  have huni : ∀ b ∈ bindingsIn U.E srcs s n, b.F.isInstance = b0.F.isInstance := by
    intro b hb
    have hno := (C81_needed pairs _ p h).2.1 s n hobj'
    have e1 := hop b hb
    have e2 := hop b0 hb0
    revert e1 e2
    cases b.F.isInstance <;> cases b0.F.isInstance <;> intro e1 e2
    · rfl
    · exact absurd e1 (hno e2)
    · exact absurd e2 (hno e1)
    · rfl
  refine ⟨b0.F.isInstance, bindingDefs U.E, ?_, ?_, ?_, ?_⟩
  · obtain ⟨k1, k2⟩ := C84_names U o fs fs' srcs hg pairs p h s n
    have := k1.2 (.inl ⟨_, .func b0.F.isInstance, (hmade _).1 (hop b0 hb0), by simp [Op.binds]⟩)
    obtain ⟨k, hk⟩ := Option.isSome_iff_exists.1 this
    rw [hk]
    rcases k2 _ hk with ⟨op, hop', hk'⟩ | ⟨_, x, hx, e1, e2⟩
    · cases k with
      | object => exact absurd hk' (hobj op hop')
      | func m =>
        have he : op = .function s n m := by
          cases op <;> simp only [Op.binds, List.mem_singleton, Prod.mk.injEq, List.mem_cons, reduceCtorEq, and_false, false_or, List.not_mem_nil] at hk'
          case enum_ => split at hk' <;> simp at hk'
          case function =>
            obtain ⟨⟨rfl, rfl⟩, hk''⟩ := hk'.resolve_right id
            injection hk'' with hk''; rw [hk'']
        subst he
        have hin := (hmade m).2 hop'
        have hno := (C81_needed pairs _ p h).2.1 s n hobj'
        have e2 := hop b0 hb0
        revert e2 hin
        cases m <;> cases b0.F.isInstance <;> intro hin e2
        · rfl
        · exact absurd hin (hno e2)
        · exact absurd e2 (hno hin)
        · rfl
    · by_cases hn : n.head? = some '_'
      · exact absurd ⟨e1, e2⟩ (hmod hn x hx)
      · obtain ⟨p0, h0, h3⟩ := importModule_some h
        obtain ⟨_, _, h4⟩ := makeModules_state h0
        have hp0 : p0.own s n = some .object := by
          rcases h4 s n with ⟨e, _⟩ | ⟨hno, _⟩
          · exact e
          · exact absurd ⟨e1, e2⟩ (hno x hx)
        rw [e1] at hp0
        have := hop b0 hb0
        rw [e1] at this
        exact absurd this (object_kept _ h3 hp0 hn _)
  · rw [hchain]
    have : ∀ l : List Binding, (∀ b ∈ l, b ∈ bindingsIn U.E srcs s n) → l.flatMap (fun b => overloads b.F (firstArity b.F) (defOp s n b)) =
        l.flatMap fun b => (bindingDefs U.E b).map fun _ => Op.function s n b0.F.isInstance := by
      intro l hl
      induction l with
      | nil => rfl
      | cons b l ih =>
        rw [List.flatMap_cons, List.flatMap_cons, ih fun b' hb' => hl b' (List.mem_cons_of_mem _ hb')]
        congr 1
        have hb := hl b List.mem_cons_self
        rw [binding_instance hw hg hb, huni b hb]
        unfold overloads bindingDefs
        rw [List.map_map]
        rfl
    exact this _ fun b hb => hb
  · intro b hb
    refine ⟨huni b hb, ?_, fun module => ⟨_, bindFunctionText_eq U.E module b.F b.parent b.lam⟩⟩
    intro x hx
    obtain ⟨k, _, rfl⟩ := List.mem_map.1 hx
    exact (mem_bindingsIn.1 hb).2
  · intro V can obj c hs ho hmono hob
    exact bindingDefs_call U.E _ V can obj c hs (fun b hb => by rw [huni b hb]; exact ho) hmono hob

/-- The hypotheses of C93 are met by the function `n::f` of the example program. -/
example : ∃ fs' srcs pairs p, Generated Ex.unit (Ex.opts 1000) Ex.fsEmpty fs' srcs ∧ importModule pairs (importOps Ex.unit.E srcs) = some p ∧
    Ex.unit.E.Wellfounded ∧ (∀ op, Made Ex.unit op → ((.module c!"n", c!"f"), .object) ∉ op.binds) ∧
    bindingsIn Ex.unit.E srcs (.module c!"n") c!"f" ≠ [] ∧
    Possible Ex.fun_f (⟨[], [(c!"s", 5)]⟩ : PyCall Nat) [5] := by
  obtain ⟨fs', srcs, pairs, p, hg, hp, _⟩ := Ex.unit_imported
  refine ⟨fs', srcs, pairs, p, hg, hp, Ex.env_wellfounded, ?_, ?_, ?_⟩
  · rintro op ⟨v, hv, _, hop⟩
    have : ∀ v ∈ Ex.unit.visits, ∀ op ∈ opsOf Ex.unit.E v, ((Scope.module c!"n", c!"f"), Kind.object) ∉ op.binds := by decide +kernel
    exact this v (Ex.unit_visits hv) op hop
  · exact List.ne_nil_of_mem ((C93_functions _ _ _ _ _ hg c!"n" c!"f" ⟨Ex.fun_f, none, false⟩).2
      ⟨Ex.unit_reached.1, rfl, by decide +kernel, by decide +kernel, rfl, rfl⟩)
  · exact ⟨⟨⟨by decide, List.nil_prefix, .refl _⟩, by decide, by unfold NamesDiffer; decide⟩, .inl rfl, fun h => by cases h⟩

/-- C93. A method of a class is also found for objects of its subclasses, if no class has the name except the one that defines the method. -/
theorem C93_inherited (U : TransUnit) (o : Opts) (fs fs' : FS) (srcs : List Source) (hg : Generated U o fs fs' srcs) (pairs : List (Str × Str)) (p : Py)
    (h : importModule pairs (importOps U.E srcs) = some p) (r q n : Str) (hd : Derives U (ListedBase U.E) r q) (hn : (p.own (.type q) n).isSome = true)
    (hno : ∀ t, Derives U (ListedBase U.E) r t → t ≠ q → ∀ op kind, Made U op → ((.type t, n), kind) ∉ op.binds) : p.owner r n = some q := by
  have hq := (C84_subclass U o fs fs' srcs hg pairs p h r q).2 hd
  have hall : ∀ t ∈ p.order r, (p.own (.type t) n).isSome = true → t = q := by
    intro t ht hs
    apply Classical.byContradiction
    intro hne
    rcases (C84_names U o fs fs' srcs hg pairs p h (.type t) n).1.1 hs with ⟨op, kind, h1, h2⟩ | ⟨x, _, e, _⟩
    · exact hno t ((C84_subclass U o fs fs' srcs hg pairs p h r t).1 ht) hne op kind h1 h2
    · cases e
  unfold Py.owner
  cases hf : (p.order r).find? fun t => (p.own (.type t) n).isSome with
  | none => exact absurd hn (List.find?_eq_none.1 hf q hq)
  | some t => 
    have ht := List.find?_some hf
    rw [hall t (List.mem_of_find?_eq_some hf) ht]

/-! ## A class with methods -/

/-- `int A::g(int n = 0)` and `int A::g(A a)` -/
def Ex.methodG : Func := exampleMethod c!"g" false (.basic 0) [⟨c!"n", .basic 0, true⟩]
def Ex.methodG' : Func := { exampleMethod c!"g" false (.basic 0) [⟨c!"a", .record 0, false⟩] with ptr := 2 }

/-- `struct A { int g(int n = 0); int g(A a); }; struct B : A {};` with `+namespace` for all. -/
def Ex.inherits : TransUnit :=
  { env := withClasses { exampleEnv with tyName := Ex.diamondName, cfg := { namespacesToBind := [c!""] }, baseRank := id }
      [{ exampleRecord with members := [.method Ex.methodG, .method Ex.methodG'] },
       { exampleRecord with name := c!"B", qname := c!"B", bases := [⟨.pub, false, some 0⟩] }]
    visits := [.cls 0, .cls 1], inSystem := fun _ => false, depth := 20 }

theorem Ex.inherits_listed {i j : Nat} (h : ListedBase Ex.inherits.E i j) : i = 1 ∧ j = 0 := by
  have h' := (mem_boundBases _ _ _).2 h
  match i with
  | 0 => rw [show boundBases Ex.inherits.E (Ex.inherits.E.cls 0) = [] by decide +kernel] at h'; cases h'
  | 1 => rw [show boundBases Ex.inherits.E (Ex.inherits.E.cls 1) = [0] by decide +kernel] at h'; exact ⟨rfl, List.mem_singleton.1 h'⟩
  | n + 2 => rw [show boundBases Ex.inherits.E (Ex.inherits.E.cls (n + 2)) = [] from rfl] at h'; cases h'

theorem Ex.inherits_nested (i : Nat) : nestedBound Ex.inherits.E (Ex.inherits.E.cls i) = [] := by
  match i with
  | 0 | 1 => rfl
  | n + 2 => rfl

/-- For the example program: the module can be imported; the calls of `g` for a `B` are about the two methods of `A`, in order. -/
theorem Ex.inherits_calls : ∃ o fs' srcs pairs p, Ex.inherits.Ends o Ex.fsEmpty (.done fs') ∧ Generated Ex.inherits o Ex.fsEmpty fs' srcs ∧
    importModule pairs (importOps Ex.inherits.E srcs) = some p ∧ Ex.inherits.E.Wellfounded ∧
    (∀ op, Made Ex.inherits op → ((.type c!"A", c!"g"), .object) ∉ op.binds) ∧
    bindingsIn Ex.inherits.E srcs (.type c!"A") c!"g" = [⟨Ex.methodG, none, false⟩, ⟨Ex.methodG', none, false⟩] ∧ p.owner c!"B" c!"g" = some c!"A" := by
  obtain ⟨fs', h, _⟩ : ∃ fs', Ex.inherits.Ends { Ex.opts 1000 with single := true } Ex.fsEmpty (.done fs') ∧ (fun _ => true) fs' = true :=
    Ex.ends_after (n := 20) (by decide +kernel)
  have hreg : ∀ i a j b k, registers Ex.inherits.E (.cls i) = a ++ j :: b → j ≠ i → ListedBase Ex.inherits.E j k → k ∈ a := by
    intro i a j b k h hj _
    have hm : j ∈ registers Ex.inherits.E (.cls i) := by rw [h]; simp
    rcases registersF_cases hm with rfl | ⟨k', hk⟩
    · exact absurd rfl hj
    · rw [Ex.inherits_nested] at hk; cases hk
  have hvis : ∀ v, Reached Ex.inherits v → v ∈ Ex.inherits.visits := fun v hv => (considered_offered hv.considered).1
  have hns : ∀ v ∈ Ex.inherits.visits, namespaceOf Ex.inherits.E v = [] := by decide +kernel
  have hplain : BasesPlain Ex.inherits := by
    constructor
    · intro i j k h hk
      obtain ⟨rfl, rfl⟩ := Ex.inherits_listed h
      have key : ∀ k < 2, classQualifiedName Ex.inherits.E (Ex.inherits.E.cls k) = classQualifiedName Ex.inherits.E (Ex.inherits.E.cls 0) ∨
          typeNameOfRecord Ex.inherits.E k = typeNameOfRecord Ex.inherits.E 0 → k = 0 := by decide +kernel
      refine key k ?_
      have := (considered_offered hk).1
      simp only [Ex.inherits, List.mem_cons, Visit.cls.injEq, List.not_mem_nil, or_false] at this
      omega
    · intro i j k h
      obtain ⟨rfl, rfl⟩ := Ex.inherits_listed h
      have : typeNameOfEnum Ex.inherits.E k = typeNameOfEnum Ex.inherits.E 0 := by
        unfold typeNameOfEnum stdTy
        have h1 : Ex.inherits.E.tyName (.enum k) = Ex.inherits.E.tyName (.enum 0) := rfl
        have h2 : Ex.inherits.E.tyName (Ty.enum k).canon = Ex.inherits.E.tyName (Ty.enum 0).canon := rfl
        rw [h1, h2]
      rw [this]
      decide +kernel
    · intro i j h; obtain ⟨rfl, rfl⟩ := Ex.inherits_listed h; exact ⟨rfl, .inl rfl⟩
    · intro i j h; obtain ⟨rfl, rfl⟩ := Ex.inherits_listed h; decide +kernel
    · intro i j _; rfl
  have hanon : ∀ i, (Ex.inherits.E.cls i).isAnonymous = false := by
    intro i
    match i with
    | 0 | 1 => rfl
    | n + 2 => rfl
  have hcomp : Compatible (fun op => ∃ v, Reached Ex.inherits v ∧ op ∈ opsOf Ex.inherits.E v) (HasModule Ex.inherits)
      (fun q => if q = c!"B" then [c!"B", c!"A"] else [q]) := by
    refine compatible_of_list (ops := Ex.inherits.visits.flatMap (opsOf Ex.inherits.E)) (pairs := [c!""].map fun n => ([], n)) ?_ ?_ (by decide +kernel)
    · rintro op ⟨v, hv, hop⟩
      exact List.mem_flatMap.2 ⟨v, hvis v hv, hop⟩
    · intro x hx
      exact hasModule_single (fun v hv => by rw [hns v (hvis v hv)]; simp) (by decide) hx
  have hone : OneDefinition Ex.inherits := by
    constructor
    · intro v hv
      have : ∀ v ∈ Ex.inherits.visits, ((opsOf Ex.inherits.E v).filterMap Op.type?).Nodup := by decide +kernel
      exact this v (hvis v hv)
    · intro v w q hv hw
      have : ∀ v ∈ Ex.inherits.visits, ∀ w ∈ Ex.inherits.visits, ∀ q ∈ (opsOf Ex.inherits.E v).filterMap Op.type?,
          q ∈ (opsOf Ex.inherits.E w).filterMap Op.type? → v = w := by decide +kernel
      exact this v (hvis v hv) w (hvis w hw) q
  obtain ⟨srcs, pairs, root, hg, _, _, p, hp⟩ := C81_import_partial Ex.inherits _ Ex.fsEmpty fs' Ex.fsEmpty_wf (by decide) (.inl rfl)
    (wellfounded_of_ranked (by decide)) h hplain hreg hone
    ⟨fun i j hj => (by rw [Ex.inherits_nested] at hj; cases hj), fun i j hj => (by rw [Ex.inherits_nested] at hj; cases hj)⟩
    (fun i _ => hanon i) (fun v hv h => by rw [hns v (hvis v hv)] at h; revert h; decide) _ hcomp
  have hw : Ex.inherits.E.Wellfounded := wellfounded_of_ranked (by decide)
  have hr : ∀ i, i = 0 ∨ i = 1 → Reached Ex.inherits (.cls i) := by
    rintro i (rfl | rfl)
    · refine Ex.asked (by decide +kernel) True.intro (by decide +kernel) ?_ rfl (by decide +kernel)
      unfold Converted; decide +kernel
    · refine Ex.asked (by decide +kernel) True.intro (by decide +kernel) ?_ rfl (by decide +kernel)
      unfold Converted; decide +kernel
  have hc : ∀ i, i = 0 ∨ i = 1 → HasClass Ex.inherits i := by
    intro i hi
    refine ⟨⟨.cls i, hr i hi, rfl, ?_⟩, rfl⟩
    rcases hi with rfl | rfl <;> decide +kernel
  have hobj : ∀ op, Made Ex.inherits op → ((.type c!"A", c!"g"), .object) ∉ op.binds := by
    rintro op ⟨v, hv, _, hop⟩
    have : ∀ v ∈ Ex.inherits.visits, ∀ op ∈ opsOf Ex.inherits.E v, ((Scope.type c!"A", c!"g"), Kind.object) ∉ op.binds := by decide +kernel
    exact this v (hvis v hv) op hop
  have hbind : bindingsIn Ex.inherits.E srcs (.type c!"A") c!"g" = [⟨Ex.methodG, none, false⟩, ⟨Ex.methodG', none, false⟩] := by
    have hb0 : bindingsOf Ex.inherits.E (.cls 0) = [(.type c!"A", ⟨Ex.methodG, none, false⟩), (.type c!"A", ⟨Ex.methodG', none, false⟩)] := rfl
    have hb1 : bindingsOf Ex.inherits.E (.cls 1) = [] := rfl
    have hin := (hg.exactly (.cls 0)).2 ⟨hr 0 (.inl rfl), rfl⟩
    obtain ⟨a, b, e⟩ := List.append_of_mem hin
    have hnd := hg.once
    rw [e, List.nodup_append, List.nodup_cons] at hnd
    have hone : ∀ v ∈ srcs.flatMap Source.bound, v ≠ .cls 0 → bindingsOf Ex.inherits.E v = [] := by
      intro v hv hne
      have := hvis v ((hg.exactly v).1 hv).1
      simp only [Ex.inherits, List.mem_cons, List.not_mem_nil, or_false] at this
      rcases this with rfl | rfl
      · exact absurd rfl hne
      · exact hb1
    rw [e] at hone
    have ha : a.flatMap (bindingsOf Ex.inherits.E) = [] := List.flatMap_eq_nil_iff.2 fun v hv =>
      hone v (by simp [hv]) fun e' => hnd.2.2 v hv (.cls 0) (by simp) e'
    have hb : b.flatMap (bindingsOf Ex.inherits.E) = [] := List.flatMap_eq_nil_iff.2 fun v hv =>
      hone v (by simp [hv]) fun e' => hnd.2.1.1 (e' ▸ hv)
    unfold bindingsIn
    rw [e, List.flatMap_append, List.flatMap_cons, ha, hb, hb0]
    rfl
  have hown : (p.own (.type c!"A") c!"g").isSome = true := by
    obtain ⟨m, _, h, _⟩ := C93_call_partial Ex.inherits hw _ _ _ srcs hg pairs p hp (.type c!"A") c!"g" (by decide) (by decide) hobj
      (fun h => absurd h (by decide)) _ hbind.symm (by simp)
    rw [h]; rfl
  refine ⟨_, fs', srcs, pairs, p, h, hg, hp, hw, hobj, hbind, ?_⟩
  have e0 : classQualifiedName Ex.inherits.E (Ex.inherits.E.cls 0) = c!"A" := by decide +kernel
  have e1 : classQualifiedName Ex.inherits.E (Ex.inherits.E.cls 1) = c!"B" := by decide +kernel
  have hd : Derives Ex.inherits (ListedBase Ex.inherits.E) c!"B" c!"A" := by
    rw [← e0, ← e1]
    exact .step (hc 1 (.inr rfl)) ((mem_boundBases _ _ _).1 (by decide +kernel)) (.refl _)
  refine C93_inherited _ _ _ _ _ hg _ _ hp _ _ _ hd hown ?_
  rintro t ht hne op kind ⟨v, hv, _, hop⟩
  have : ∀ v ∈ Ex.inherits.visits, ∀ op ∈ opsOf Ex.inherits.E v, ∀ x ∈ op.binds, x.1.2 = c!"g" → x.1.1 = .type c!"A" := by decide +kernel
  intro hb
  have := this v (hvis v hv) op hop _ hb rfl
  exact hne (by simpa using this)

end Binder
