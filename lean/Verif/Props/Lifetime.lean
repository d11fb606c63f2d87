import Verif.Props.Function
import Verif.Props.CallRun
import Verif.Lemmas.Lifetime

/-!
# Objects that Python and C++ share (C101)
-/

namespace Binder

open Cxx Spec

/-- The `def` statements and the policies in them. -/
theorem defsOf_policy (E : Env) (bs : List Binding) : ∃ defs : Binding → List Def, DefsOf E bs defs ∧
    ∀ b, ∀ d ∈ defs b, d.policy = policyFor E.cfg b.F.isInstance (returnKind b.F.ret) := by
  refine ⟨fun b => (arities (firstArity b.F) b.F.params.length).map fun k => overloadDef E b.F k b.parent b.lam, fun b _ => ⟨?_, fun module => ?_⟩, ?_⟩
  · intro h
    have := firstArity_le b.F
    have := congrArg List.length h
    simp [arities] at this
    omega
  · exact ⟨_, bindFunctionText_eq E module b.F b.parent b.lam⟩
  · intro b d hd
    obtain ⟨k, _, rfl⟩ := List.mem_map.1 hd
    rfl

theorem policy_text_injective : ∀ {p q : Policy}, p.text = q.text → p = q := by
  intro p q h
  cases p <;> cases q <;> first | rfl | exact absurd h (by decide)

theorem getters_cast {E : Env} {bs : List Binding} {defs : Binding → List Def}
    (hd : ∀ b, ∀ d ∈ defs b, d.policy = policyFor E.cfg b.F.isInstance (returnKind b.F.ret)) {promise : Func → Promise} {g : Getter}
    (h : Getters bs defs promise g) : ∃ b ∈ bs, refersToObject b.F.ret = true ∧ promise b.F = g.promise ∧ returnKind b.F.ret = some g.kind ∧
      policyFor E.cfg b.F.isInstance (some g.kind) = some g.policy.text := by
  obtain ⟨b, hb, hr, hk, hp, d, hdm, hdp⟩ := h
  exact ⟨b, hb, hr, hp, hk, by rw [← hk, ← hd b d hdm]; exact hdp⟩

theorem returnKind_of_refers : ∀ {t : Ty}, refersToObject t = true → ∃ k, returnKind t = some k
  | .ptr _, _ => ⟨_, rfl⟩
  | .lref _, _ => ⟨_, rfl⟩
  | .rref _, _ => ⟨_, rfl⟩
  | .const t, h => returnKind_of_refers (t := t) h
  | .sugar _ t, h => returnKind_of_refers (t := t) h
  | .basic _, h => by cases h
  | .dep _, h => by cases h
  | .arr _, h => by cases h
  | .fn _ _, h => by cases h
  | .record _, h => by cases h
  | .enum _, h => by cases h

theorem getters_of {E : Env} {bs : List Binding} {defs : Binding → List Def} (h1 : DefsOf E bs defs)
    (hd : ∀ b, ∀ d ∈ defs b, d.policy = policyFor E.cfg b.F.isInstance (returnKind b.F.ret)) (promise : Func → Promise) {b : Binding} (hb : b ∈ bs)
    (hr : refersToObject b.F.ret = true) {k : ReturnKind} (hk : returnKind b.F.ret = some k) {p : Policy}
    (hp : policyFor E.cfg b.F.isInstance (some k) = some p.text) : Getters bs defs promise ⟨k, p, promise b.F⟩ := by
  obtain ⟨d, hdm⟩ := List.exists_mem_of_ne_nil _ (h1 b hb).1
  exact ⟨b, hb, hr, hk, rfl, d, hdm, by rw [hd b d hdm, hk]; exact hp⟩

theorem takesOver_iff (cfg : Config) {F : Func} {k : ReturnKind} (hk : returnKind F.ret = some k) :
    TakesOver cfg F ↔ ∃ p : Policy, policyFor cfg F.isInstance (some k) = some p.text ∧ castOf k p = .take := by
  unfold TakesOver
  rw [hk]
  cases k with
  | pointer =>
    constructor
    · rintro (h | h)
      · exact ⟨_, h, rfl⟩
      · exact ⟨_, h, rfl⟩
    · rintro ⟨p, h, hc⟩
      cases p <;> first | exact .inl h | exact .inr h | cases hc
  | lvalueReference =>
    constructor
    · intro h; exact ⟨_, h, rfl⟩
    · rintro ⟨p, h, hc⟩
      cases p <;> first | exact h | cases hc
  | rvalueReference => exact ⟨fun h => h.elim, fun ⟨p, _, hc⟩ => by cases hc⟩

theorem keepsAlive_iff (cfg : Config) {F : Func} {k : ReturnKind} (hk : returnKind F.ret = some k) {p : Policy}
    (hp : policyFor cfg F.isInstance (some k) = some p.text) : KeepsAlive cfg F ↔ castOf k p = .copy ∨ castOf k p = .internal := by
  unfold KeepsAlive
  rw [hk]
  have key : ∀ l : List Policy, (∃ q ∈ l, policyFor cfg F.isInstance (some k) = some q.text) ↔ p ∈ l := by
    intro l
    constructor
    · rintro ⟨q, hq, e⟩
      rw [policy_text_injective (Option.some.inj (hp.symm.trans e))]; exact hq
    · exact fun h => ⟨p, h, hp⟩
  cases k with
  | pointer => exact (key _).trans (by cases p <;> decide)
  | lvalueReference => exact (key _).trans (by cases p <;> decide)
  | rvalueReference => simp [castOf]

theorem gives_new {gs : Getter → Prop} {k : ReturnKind} {p : Policy} (hg : gs ⟨k, p, .gives⟩) (hc : castOf k p ≠ .take) (patient : Bool) :
    ∃ w, PossibleHeap gs patient w ∧ ¬ NoLeak w := by
  refine ⟨_, .step .start (.gives (self := none) hg rfl), ?_⟩
  intro h
  have := h 0 (by cases hk : castOf k p <;> simp [Heap.wrap, Heap.grow, Heap.add, hk])
  cases hk : castOf k p <;> simp_all [Heap.wrap, Heap.grow, Heap.add]

theorem refer_dangles {gs : Getter → Prop} {k : ReturnKind} {p : Policy} (hg : gs ⟨k, p, .internal⟩) (hc : castOf k p = .refer) (patient : Bool) :
    ∃ w, PossibleHeap gs patient w ∧ ¬ NoDangling w := by
  have w1 : PossibleHeap gs patient { live := [0], insts := [⟨0, ⟨0, 0⟩, true, none⟩], blocks := 1, ids := 1 } := .step .start .make
  have w2 := PossibleHeap.step w1 (.internal (a := ⟨0, 1⟩) hg rfl List.mem_cons_self List.mem_cons_self rfl)
  simp only [hc] at w2
  have w3 := PossibleHeap.step w2 (.forget (i := ⟨0, ⟨0, 0⟩, true, none⟩) (by simp [Heap.wrap, Heap.add]) (by simp [Heap.wrap, Heap.add]))
  refine ⟨_, w3, ?_⟩
  intro h
  have := h ⟨1, ⟨0, 1⟩, false, none⟩ (by simp [Heap.wrap, Heap.add])
  simp [Heap.wrap, Heap.add, Heap.destroy] at this

theorem take_internal {gs : Getter → Prop} {k : ReturnKind} {p : Policy} (hg : gs ⟨k, p, .internal⟩) (hc : castOf k p = .take) (patient : Bool) :
    ∃ w, PossibleHeap gs patient w ∧ ¬ DestroyedOnce w := by
  have w1 : PossibleHeap gs patient { live := [0], insts := [⟨0, ⟨0, 0⟩, true, none⟩], blocks := 1, ids := 1 } := .step .start .make
  have w2 := PossibleHeap.step w1 (.internal (a := ⟨0, 1⟩) hg rfl List.mem_cons_self List.mem_cons_self rfl)
  simp only [hc] at w2
  have w3 := PossibleHeap.step w2 (.forget (i := ⟨1, ⟨0, 1⟩, true, none⟩) (by simp [Heap.wrap, Heap.add]) (by simp [Heap.wrap, Heap.add]))
  refine ⟨_, w3, ?_⟩
  intro h
  have := h.2 ⟨0, 1⟩ (by simp [Heap.wrap, Heap.add, Heap.destroy])
  cases this

theorem take_borrowed {gs : Getter → Prop} {k : ReturnKind} {p : Policy} (hg : gs ⟨k, p, .borrowed⟩) (hc : castOf k p = .take) (patient : Bool) :
    ∃ w, PossibleHeap gs patient w ∧ ¬ DestroyedOnce w := by
  have w1 : PossibleHeap gs patient { live := [0], cxx := [0], blocks := 1 } := .step .start .cxxMake
  have w2 := PossibleHeap.step w1 (.borrowed (self := none) (a := ⟨0, 0⟩) hg rfl List.mem_cons_self List.mem_cons_self)
  simp only [hc] at w2
  have w3 := PossibleHeap.step w2 (.forget (i := ⟨0, ⟨0, 0⟩, true, none⟩) (by simp [Heap.wrap, Heap.add]) (by simp [Heap.wrap, Heap.add]))
  have w4 := PossibleHeap.step w3 (.cxxDestroy (b := 0) (by simp [Heap.wrap, Heap.add, Heap.destroy]) (by simp [Heap.wrap, Heap.add, Heap.destroy]))
  refine ⟨_, w4, ?_⟩
  intro h
  have := h.1
  simp [Heap.wrap, Heap.add, Heap.destroy] at this

/-- C101, that nothing is destroyed twice: whatever Python and C++ do, no object is destroyed twice, and no part of an object without the
object, exactly if Python does not become the owner of what functions return by pointer or by reference without giving it away.

The policies are those in the `def` statements of the bound functions (`C93_functions` and `C93_methods` say which these are); it does not
matter whether C++ waits for Python before it destroys objects. -/
theorem C101_destroyed_once (E : Env) (bs : List Binding) (patient : Bool) : ∃ defs, DefsOf E bs defs ∧ ∀ promise : Func → Promise,
    (∀ w, PossibleHeap (Getters bs defs promise) patient w → DestroyedOnce w) ↔
      ∀ b ∈ bs, refersToObject b.F.ret = true → promise b.F ≠ .gives → ¬ TakesOver E.cfg b.F := by
  obtain ⟨defs, h1, h2⟩ := defsOf_policy E bs
  refine ⟨defs, h1, fun promise => ⟨fun hall b hb hr hp ht => ?_, fun hfit w hw => ?_⟩⟩
  · obtain ⟨k, hk⟩ := returnKind_of_refers hr
    obtain ⟨p, hpol, hc⟩ := (takesOver_iff E.cfg hk).1 ht
    have hg := getters_of h1 h2 promise hb hr hk hpol
    cases hpr : promise b.F with
    | gives => exact hp hpr
    | internal =>
      rw [hpr] at hg
      obtain ⟨w, hw, hn⟩ := take_internal hg hc patient
      exact hn (hall w hw)
    | borrowed =>
      rw [hpr] at hg
      obtain ⟨w, hw, hn⟩ := take_borrowed hg hc patient
      exact hn (hall w hw)
  · have := hw.owned fun g hg hp hc => by
      obtain ⟨b, hb, hr, hpb, hk, hpol⟩ := getters_cast h2 hg
      exact hfit b hb hr (hpb ▸ hp) ((takesOver_iff E.cfg hk).2 ⟨_, hpol, hc⟩)
    exact ⟨this.gone.1, fun a ha => (this.gone.2 a ha).1⟩

/-- C101, that objects stay as long as Python refers to them: if nothing is destroyed twice, and C++ does not destroy what Python refers to,
then every Python object always stands for an object that exists, exactly if, of the parts of their objects that functions return,
Python gets copies, or keeps the objects alive. -/
theorem C101_no_dangling (E : Env) (bs : List Binding) (hkn : PoliciesKnown E.cfg bs) : ∃ defs, DefsOf E bs defs ∧ ∀ promise : Func → Promise,
    (∀ b ∈ bs, refersToObject b.F.ret = true → promise b.F ≠ .gives → ¬ TakesOver E.cfg b.F) →
    ((∀ w, PossibleHeap (Getters bs defs promise) true w → NoDangling w) ↔
      ∀ b ∈ bs, refersToObject b.F.ret = true → promise b.F = .internal → KeepsAlive E.cfg b.F) := by
  obtain ⟨defs, h1, h2⟩ := defsOf_policy E bs
  refine ⟨defs, h1, fun promise hfit => ⟨fun hall b hb hr hp => ?_, fun hkeep w hw => ?_⟩⟩
  · obtain ⟨k, hk⟩ := returnKind_of_refers hr
    obtain ⟨p, hpol⟩ := hkn b hb hr k hk
    rw [keepsAlive_iff E.cfg hk hpol]
    have hg := getters_of h1 h2 promise hb hr hk hpol
    rw [hp] at hg
    cases hc : castOf k p with
    | take => exact absurd ((takesOver_iff E.cfg hk).2 ⟨_, hpol, hc⟩) (hfit b hb hr (by rw [hp]; decide))
    | copy => exact .inl rfl
    | internal => exact .inr rfl
    | refer =>
      obtain ⟨w, hw, hn⟩ := refer_dangles hg hc true
      exact absurd (hall w hw) hn
  · refine (hw.kept ?_ ?_).live
    · intro g hg hp hc
      obtain ⟨b, hb, hr, hpb, hk, hpol⟩ := getters_cast h2 hg
      exact hfit b hb hr (hpb ▸ hp) ((takesOver_iff E.cfg hk).2 ⟨_, hpol, hc⟩)
    · intro g hg hp hc
      obtain ⟨b, hb, hr, hpb, hk, hpol⟩ := getters_cast h2 hg
      rcases (keepsAlive_iff E.cfg hk hpol).1 (hkeep b hb hr (hpb.trans hp)) with h | h <;> rw [hc] at h <;> cases h

/-- C101, that everything is destroyed some day: every object that exists is one that C++ will destroy, or one that a Python object owns,
exactly if Python becomes the owner of what functions give away. -/
theorem C101_no_leak (E : Env) (bs : List Binding) (hkn : PoliciesKnown E.cfg bs) (patient : Bool) : ∃ defs, DefsOf E bs defs ∧
    ∀ promise : Func → Promise, (∀ w, PossibleHeap (Getters bs defs promise) patient w → NoLeak w) ↔
      ∀ b ∈ bs, refersToObject b.F.ret = true → promise b.F = .gives → TakesOver E.cfg b.F := by
  obtain ⟨defs, h1, h2⟩ := defsOf_policy E bs
  refine ⟨defs, h1, fun promise => ⟨fun hall b hb hr hp => ?_, fun hfit w hw => hw.noLeak ?_⟩⟩
  · obtain ⟨k, hk⟩ := returnKind_of_refers hr
    obtain ⟨p, hpol⟩ := hkn b hb hr k hk
    have hg := getters_of h1 h2 promise hb hr hk hpol
    rw [hp] at hg
    refine (takesOver_iff E.cfg hk).2 ⟨p, hpol, ?_⟩
    by_cases hc : castOf k p = .take
    · exact hc
    · obtain ⟨w, hw, hn⟩ := gives_new hg hc patient
      exact absurd (hall w hw) hn
  · intro g hg hp
    obtain ⟨b, hb, hr, hpb, hk, hpol⟩ := getters_cast h2 hg
    obtain ⟨p, hpol', hc⟩ := (takesOver_iff E.cfg hk).1 (hfit b hb hr (hpb.trans hp))
    rw [policy_text_injective (Option.some.inj (hpol.symm.trans hpol'))]; exact hc

/-- C101. No configuration fits a module in which two methods, or two other functions, return pointers, one to an object that it gives away and
one to an object that it does not: the policy depends on nothing else. -/
theorem C101_both_false (E : Env) (bs : List Binding) (hkn : PoliciesKnown E.cfg bs) (f g : Binding) (hf : f ∈ bs) (hg : g ∈ bs)
    (hrf : refersToObject f.F.ret = true) (hrg : refersToObject g.F.ret = true) (hkf : returnKind f.F.ret = some .pointer)
    (hkg : returnKind g.F.ret = some .pointer) (hi : f.F.isInstance = g.F.isInstance) (promise : Func → Promise)
    (hpf : promise f.F = .gives) (hpg : promise g.F ≠ .gives) (patient : Bool) :
    ∃ defs, DefsOf E bs defs ∧ ∃ w, PossibleHeap (Getters bs defs promise) patient w ∧ ¬ (DestroyedOnce w ∧ NoLeak w) := by
  obtain ⟨defs, h1, h2⟩ := defsOf_policy E bs
  refine ⟨defs, h1, ?_⟩
  obtain ⟨p, hpol⟩ := hkn f hf hrf _ hkf
  have gf := getters_of h1 h2 promise hf hrf hkf hpol
  have gg := getters_of h1 h2 promise hg hrg hkg (hi ▸ hpol)
  rw [hpf] at gf
  by_cases hc : castOf .pointer p = .take
  · cases hpr : promise g.F with
    | gives => exact absurd hpr hpg
    | internal =>
      rw [hpr] at gg
      obtain ⟨w, hw, hn⟩ := take_internal gg hc patient
      exact ⟨w, hw, fun h => hn h.1⟩
    | borrowed =>
      rw [hpr] at gg
      obtain ⟨w, hw, hn⟩ := take_borrowed gg hc patient
      exact ⟨w, hw, fun h => hn h.1⟩
  · obtain ⟨w, hw, hn⟩ := gives_new gf hc patient
    exact ⟨w, hw, fun h => hn h.2⟩

/-! ## Examples -/

/-- `A *A::child()`, `A *A::clone()` and `A &A::whole()`. -/
def Ex.child : Func := exampleMethod c!"child" false (.ptr (.record 0)) []
def Ex.clone : Func := { exampleMethod c!"clone" false (.ptr (.record 0)) [] with ptr := 2 }
def Ex.whole : Func := { exampleMethod c!"whole" false (.lref (.record 0)) [] with ptr := 3 }

/-- `struct A { A *child(); A *clone(); A &whole(); };` with the given configuration. -/
def Ex.tree (cfg : Config) : TransUnit :=
  { env := withClasses { exampleEnv with tyName := Ex.diamondName, cfg := cfg, baseRank := id }
      [{ exampleRecord with members := [.method Ex.child, .method Ex.clone, .method Ex.whole] }]
    visits := [.cls 0], inSystem := fun _ => false, depth := 20 }

/-- `+namespace` for all, and nothing else; and with the policies in the documentation (config.rst:219-224). -/
def Ex.treeDefault : Config := { namespacesToBind := [c!""] }
def Ex.treeReference : Config :=
  { namespacesToBind := [c!""], memberPointerPolicy := c!"pybind11::return_value_policy::reference"
    memberLvaluePolicy := c!"pybind11::return_value_policy::reference_internal", memberRvaluePolicy := c!"pybind11::return_value_policy::move" }

/-- What the run binds. -/
theorem Ex.tree_bindings (cfg : Config) (hc : cfg = Ex.treeDefault ∨ cfg = Ex.treeReference) : ∃ o fs' srcs,
    (Ex.tree cfg).Ends o Ex.fsEmpty (.done fs') ∧ Generated (Ex.tree cfg) o Ex.fsEmpty fs' srcs ∧
    ∀ b, b ∈ moduleBindings (Ex.tree cfg).E srcs ↔ b = ⟨Ex.child, none, false⟩ ∨ b = ⟨Ex.clone, none, false⟩ ∨ b = ⟨Ex.whole, none, false⟩ := by
  obtain ⟨fs', h, _⟩ : ∃ fs', (Ex.tree cfg).Ends { Ex.opts 1000 with single := true } Ex.fsEmpty (.done fs') ∧ (fun _ => true) fs' = true := by
    rcases hc with rfl | rfl <;> exact Ex.ends_after (n := 20) (by decide +kernel)
  obtain ⟨srcs, hg⟩ := C69_exactly_once _ _ _ _ Ex.fsEmpty_wf (by show 1 + 1 < 2 ^ 32; decide) (.inl rfl) h
  refine ⟨_, fs', srcs, h, hg, fun b => ?_⟩
  have hr : Reached (Ex.tree cfg) (.cls 0) := by
    rcases hc with rfl | rfl
    all_goals
      refine Ex.asked (by decide +kernel) True.intro (by decide +kernel) ?_ rfl (by decide +kernel)
      unfold Converted; decide +kernel
  have hb : (bindingsOf (Ex.tree cfg).E (.cls 0)).map (·.2) = [⟨Ex.child, none, false⟩, ⟨Ex.clone, none, false⟩, ⟨Ex.whole, none, false⟩] := by
    rcases hc with rfl | rfl <;> rfl
  have hns : (Ex.tree cfg).E.cfg.binderForNamespaces (namespaceOf (Ex.tree cfg).E (.cls 0)) = none := by
    rcases hc with rfl | rfl <;> rfl
  have hall : ∀ v, v ∈ srcs.flatMap Source.bound ↔ v = .cls 0 := by
    intro v
    rw [hg.exactly]
    constructor
    · rintro ⟨h, _⟩
      exact List.mem_singleton.1 (considered_offered h.considered).1
    · rintro rfl; exact ⟨hr, hns⟩
  unfold moduleBindings
  rw [List.mem_map]
  constructor
  · rintro ⟨x, hx, rfl⟩
    obtain ⟨v, hv, hx⟩ := List.mem_flatMap.1 hx
    obtain rfl := (hall v).1 hv
    have : x.2 ∈ (bindingsOf (Ex.tree cfg).E (.cls 0)).map (·.2) := List.mem_map.2 ⟨x, hx, rfl⟩
    rw [hb] at this
    simpa using this
  · intro h
    have : b ∈ (bindingsOf (Ex.tree cfg).E (.cls 0)).map (·.2) := by rw [hb]; simpa using h
    obtain ⟨x, hx, rfl⟩ := List.mem_map.1 this
    exact ⟨x, List.mem_flatMap.2 ⟨_, (hall _).2 rfl, hx⟩, rfl⟩

/-- What the functions of the example promise: `child` and `whole` return parts of the object or the object, `clone` gives an object away. -/
def Ex.treePromise (F : Func) : Promise := if F.name = c!"clone" then .gives else .internal

/-- C101 fails with the configuration that one gets without asking for anything else: Python becomes the owner of the object that `child` returns,
and destroys a part of an object. -/
theorem C101_default_false : ∃ o fs' srcs, (Ex.tree Ex.treeDefault).Ends o Ex.fsEmpty (.done fs') ∧
    Generated (Ex.tree Ex.treeDefault) o Ex.fsEmpty fs' srcs ∧ ∃ defs, DefsOf (Ex.tree Ex.treeDefault).E (moduleBindings (Ex.tree Ex.treeDefault).E srcs) defs ∧
      ∃ w, PossibleHeap (Getters (moduleBindings (Ex.tree Ex.treeDefault).E srcs) defs Ex.treePromise) true w ∧ ¬ DestroyedOnce w := by
  obtain ⟨o, fs', srcs, h, hg, hb⟩ := Ex.tree_bindings Ex.treeDefault (.inl rfl)
  refine ⟨o, fs', srcs, h, hg, ?_⟩
  obtain ⟨defs, h1, h2⟩ := C101_destroyed_once (Ex.tree Ex.treeDefault).E (moduleBindings (Ex.tree Ex.treeDefault).E srcs) true
  refine ⟨defs, h1, ?_⟩
  by_cases hn : ∃ w, PossibleHeap (Getters (moduleBindings (Ex.tree Ex.treeDefault).E srcs) defs Ex.treePromise) true w ∧ ¬ DestroyedOnce w
  · exact hn
  · refine absurd ?_ ((h2 Ex.treePromise).1 (fun w hw => Classical.byContradiction fun hd => hn ⟨w, hw, hd⟩) ⟨Ex.child, none, false⟩ ((hb _).2 (.inl rfl)) rfl (by decide))
    exact .inr rfl

/-- With the policies in the documentation nothing is destroyed twice; but `clone` makes objects that nobody destroys, and the result of `child` does not keep
the object alive. -/
example : ∃ o fs' srcs, (Ex.tree Ex.treeReference).Ends o Ex.fsEmpty (.done fs') ∧ Generated (Ex.tree Ex.treeReference) o Ex.fsEmpty fs' srcs ∧
    PoliciesKnown (Ex.tree Ex.treeReference).E.cfg (moduleBindings (Ex.tree Ex.treeReference).E srcs) ∧
    (∀ b ∈ moduleBindings (Ex.tree Ex.treeReference).E srcs, ¬ TakesOver (Ex.tree Ex.treeReference).E.cfg b.F) ∧
    ¬ (∀ b ∈ moduleBindings (Ex.tree Ex.treeReference).E srcs, refersToObject b.F.ret = true → Ex.treePromise b.F = .gives →
      TakesOver (Ex.tree Ex.treeReference).E.cfg b.F) ∧
    (∀ b ∈ moduleBindings (Ex.tree Ex.treeReference).E srcs, KeepsAlive (Ex.tree Ex.treeReference).E.cfg b.F ↔ b.F.name = c!"whole") := by
  obtain ⟨o, fs', srcs, h, hg, hb⟩ := Ex.tree_bindings Ex.treeReference (.inr rfl)
  have hno : ∀ b ∈ moduleBindings (Ex.tree Ex.treeReference).E srcs, ¬ TakesOver (Ex.tree Ex.treeReference).E.cfg b.F := by
    intro b hm
    rcases (hb b).1 hm with rfl | rfl | rfl
    · show ¬ (_ ∨ _); decide
    · show ¬ (_ ∨ _); decide
    · show ¬ (_ = _); decide
  refine ⟨o, fs', srcs, h, hg, ?_, hno, ?_, ?_⟩
  · intro b hm _ k hk
    rcases (hb b).1 hm with rfl | rfl | rfl
    · cases hk; exact ⟨.reference, rfl⟩
    · cases hk; exact ⟨.reference, rfl⟩
    · cases hk; exact ⟨.referenceInternal, rfl⟩
  · intro hall
    exact hno _ ((hb _).2 (.inr (.inl rfl))) (hall _ ((hb _).2 (.inr (.inl rfl))) rfl (by decide))
  · intro b hm
    rcases (hb b).1 hm with rfl | rfl | rfl
    · rw [keepsAlive_iff (p := .reference) _ rfl rfl]; decide
    · rw [keepsAlive_iff (p := .reference) _ rfl rfl]; decide
    · rw [keepsAlive_iff (p := .referenceInternal) _ rfl rfl]; decide

end Binder
