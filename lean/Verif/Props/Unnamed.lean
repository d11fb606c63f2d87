import Verif.Props.Reserved

/-!
# C110: everything that is bound has a name in C++
-/

namespace Binder

open Cxx Spec

/-- What clang prints for a declaration without a name, or inside of one, has a closing parenthesis: `(anonymous namespace)::A`,
`(anonymous struct)`, `(unnamed enum at a.h:3)`. No other name of a class or enumeration has one. -/
def Unnamed (q : Str) : Prop := ')' ∈ q

theorem rfind_paren (q : Str) : (Str.rfind c!")" q).isSome = true ↔ Unnamed q := by
  constructor
  · intro h
    obtain ⟨i, hi⟩ := Option.isSome_iff_exists.1 h
    have hp := (Str.rfind_eq_some_iff.1 hi).1
    obtain ⟨t, ht⟩ := hp
    have : ')' ∈ q.drop i := by rw [← ht]; simp
    exact List.mem_of_mem_drop this
  · intro h
    cases e : Str.rfind c!")" q with
    | some i => rfl
    | none =>
      exfalso
      obtain ⟨a, b, rfl⟩ := List.append_of_mem h
      have := Str.rfind_eq_none_iff.1 e
      exact this a.length (by simp) ⟨b, by simp⟩

theorem classBindable_named {E : Env} {i : Nat} (h : classBindable E i = true) :
    (E.cls i).inAnonymousNamespace = false ∧ (Unnamed (E.cls i).qname → (E.cls i).isAnonymous = true ∧ (E.cls i).outer.isSome = true) := by
  unfold classBindable classBindableF at h
  simp only [Bool.if_false_left, Bool.and_eq_true, Bool.not_eq_true', decide_eq_false_iff_not, Bool.not_eq_true] at h
  obtain ⟨h1, h2, h3, h4, _⟩ := h
  refine ⟨h1, fun hu => ?_⟩
  rw [← rfind_paren] at hu
  have hl : (E.cls i).hasNameForLinkage = false := by simpa [hu] using h3
  refine ⟨by simpa [hu, hl] using h4, by simpa [hl, Record.isMember, Option.isSome_iff_ne_none] using h2⟩

theorem functionBindable_named {E : Env} {F : Func} (h : functionBindable E F = true) (hu : Unnamed F.qname) : c!"()" <:+: F.qname := by
  simp only [functionBindable, Bool.and_eq_true] at h
  have hp := h.1.1.1.1.1.1.1
  unfold parenthesisOk at hp
  obtain ⟨i, hi⟩ := Option.isSome_iff_exists.1 ((rfind_paren _).2 hu)
  rw [hi] at hp
  simp only [Bool.and_eq_true, decide_eq_true_eq, beq_iff_eq] at hp
  obtain ⟨t, ht⟩ := (Str.rfind_eq_some_iff.1 hi).1
  obtain ⟨h0, hq⟩ := hp
  obtain ⟨hlt, hq⟩ := List.getElem?_eq_some_iff.1 hq
  refine ⟨F.qname.take (i - 1), t, ?_⟩
  have h1 := List.take_append_drop (i - 1) F.qname
  rw [List.drop_eq_getElem_cons hlt, hq, show i - 1 + 1 = i by omega, ← ht] at h1
  simpa using h1

theorem registersF_named {E : Env} {n i j : Nat} (h : j ∈ registersF E n i) (hi : classBindable E i = true) : classBindable E j = true := by
  induction n generalizing i with
  | zero => cases h
  | succ n ih =>
    rw [registersF] at h
    split at h
    · cases h
    · split at h
      · rw [List.mem_singleton] at h; subst h; exact hi
      · rcases List.mem_append.1 h with h | h
        · split at h
          · cases h
          · rw [List.mem_singleton] at h; subst h; exact hi
        · obtain ⟨k, hk, hj⟩ := List.mem_flatMap.1 h
          exact ih hj (List.mem_filter.1 hk).2

/-- C110, partial. A run binds no function, and registers no class, that has no name or is in an anonymous namespace; except for
structures without name inside a class, for which the user gave an own binder. The functions must not be called `operator()`, but
that is always a member. For an enumeration only its own name is looked at, see `C110_enum_false`. -/
theorem C110_named_partial (U : TransUnit) (o : Opts) (fs fs' : FS) (hw : fs.WF) (hn : U.visits.length + 1 < 2 ^ 32)
    (hd : DistinctNames U o) (h : U.Ends o fs (.done fs'))
    (hop : ∀ F, .fn F ∈ U.visits → c!"()" <:+: F.qname → F.isOperator = true) :
    ∃ srcs, Generated U o fs fs' srcs ∧
      (∀ s ∈ srcs, ∀ F, .fn F ∈ s.bound → ¬ Unnamed F.qname) ∧
      (∀ s ∈ srcs, ∀ i, .cls i ∈ s.bound → ¬ Unnamed (U.E.cls i).qname) ∧
      (∀ s ∈ srcs, ∀ i, .enm i ∈ s.bound → (U.E.enumD i).name ≠ [] ∧ ¬ Unnamed (U.E.enumD i).name) ∧
      (∀ j ∈ registered U.E srcs, (U.E.cls j).inAnonymousNamespace = false ∧ ((U.E.cls j).isAnonymous = false → ¬ Unnamed (U.E.cls j).qname)) := by
  obtain ⟨srcs, hg⟩ := C69_exactly_once U o fs fs' hw hn hd h
  have key : ∀ {s v}, s ∈ srcs → v ∈ s.bound → Reached U v := fun hs hv => ((hg.exactly _).1 (List.mem_flatMap.2 ⟨_, hs, hv⟩)).1
  refine ⟨srcs, hg, ?_, ?_, ?_, ?_⟩
  · intro s hs F hF hu
    have hr := key hs hF
    have hst := hr.standalone
    have hb := hst.2
    have hv : .fn F ∈ U.visits := (considered_offered hr.considered).1
    have hopF := hop F hv (functionBindable_named hb hu)
    simp [functionBindable, hopF, hst.1] at hb
  · intro s hs i hi hu
    have hst := (key hs hi).standalone
    have := (classBindable_named hst.2).2 hu
    rw [hst.1] at this
    cases this.2
  · intro s hs i hi
    have := (key hs hi).allowed.possible.1
    simp only [enumBindable, Bool.and_eq_true, Bool.not_eq_true', Bool.or_eq_false_iff] at this
    refine ⟨fun e => by rw [e] at this; simp at this, fun hu => ?_⟩
    rw [← rfind_paren] at hu
    rw [hu] at this; simp at this
  · intro j hj
    obtain ⟨v, hv, hjv⟩ := List.mem_flatMap.1 hj
    obtain ⟨s, hs, hv⟩ := List.mem_flatMap.1 hv
    cases v with
    | fn F => cases hjv
    | enm i => cases hjv
    | cls i =>
      have hb := registersF_named hjv (key hs hv).standalone.2
      have := classBindable_named hb
      refine ⟨this.1, fun ha hu => ?_⟩
      rw [(this.2 hu).1] at ha; cases ha

namespace Ex

/-- An enumeration in an anonymous namespace. -/
def hiddenEnum : EnumD :=
  { exampleEnum with qname := c!"n::(anonymous namespace)::E", incl := c!"<n.h>"
                     enumerators := [(c!"X", c!"n::(anonymous namespace)::X")] }

def hiddenName : Ty → Str
  | .record i => [c!"n::(anonymous namespace)::A", c!"n::B<n::(anonymous namespace)::A>"].getD i []
  | .enum _ => c!"n::(anonymous namespace)::E"
  | t => exampleTyName t

/-- `namespace n { namespace { enum E { X }; struct A {}; } template<class T> struct B {}; void f(E e); void g(B<A> b); }` with
`+namespace n`. -/
def unspeakable : TransUnit :=
  { env := withClasses { exampleEnv with
        tyName := hiddenName, enumD := fun _ => hiddenEnum, cfg := { namespacesToBind := [c!"n"] }, argRank := fun i => i }
      [{ exampleIn c!"n::(anonymous namespace)" c!"A" none with incl := c!"<n.h>", inAnonymousNamespace := true },
       { exampleIn c!"n" c!"B" none with targs := some [⟨c!"n::(anonymous namespace)::A", .type (.record 0)⟩] }]
    visits := [.enm 0, .cls 0, .cls 1,
      .fn { exampleMethod c!"f" false (.basic 0) [⟨c!"e", .enum 0, false⟩] with qname := c!"n::f", incl := c!"<n.h>", method := none },
      .fn { exampleMethod c!"g" false (.basic 0) [⟨c!"b", .record 1, false⟩] with qname := c!"n::g", incl := c!"<n.h>", method := none }]
    inSystem := fun _ => false, depth := 20 }

end Ex

theorem Ex.unspeakable_wellfounded : Ex.unspeakable.env.Wellfounded := wellfounded_of_ranked (by decide)

/-- C110 is false for enumerations in an anonymous namespace, and for types that contain them, or that have template arguments from an
anonymous namespace: an enumeration, a class and two functions are bound by names that are no C++ code. -/
theorem C110_enum_false : Ex.unspeakable.env.Wellfounded ∧ Unnamed Ex.hiddenEnum.qname ∧
    ∃ fs', Ex.unspeakable.Ends (Ex.opts 1000) Ex.fsEmpty (.done fs') ∧ ∃ text text', fs'.files c!"out/n.cpp" = some text ∧ fs'.files c!"out/n_1.cpp" = some text' ∧
      c!"\tpybind11::enum_<n::(anonymous namespace)::E>(M(\"n::(anonymous namespace)\"), \"E\", pybind11::arithmetic(), \"\")\n\t\t.value(\"X\", n::(anonymous namespace)::X)\n" <:+: text ∧
      c!"(M(\"n\"), \"B_n_(anonymous_namespace)_A_t\", \"\");\n\t\tcl.def( pybind11::init( [](){ return new n::B<n::(anonymous namespace)::A>(); } ) );\n" <:+: text' ∧
      c!"\tM(\"n\").def(\"f\", (int (*)(n::(anonymous namespace)::E)) &n::f, " <:+: text' ∧
      c!"\tM(\"n\").def(\"g\", (int (*)(n::B<n::(anonymous namespace)::A>)) &n::g, " <:+: text' := by
  obtain ⟨fs', h, hf⟩ := Ex.ends_after (U := Ex.unspeakable) (n := 20) (o := Ex.opts 1000) (fs := Ex.fsEmpty)
    (P := fun fs => (fs.files c!"out/n.cpp").any fun text => (fs.files c!"out/n_1.cpp").any fun text' => decide (
      c!"\tpybind11::enum_<n::(anonymous namespace)::E>(M(\"n::(anonymous namespace)\"), \"E\", pybind11::arithmetic(), \"\")\n\t\t.value(\"X\", n::(anonymous namespace)::X)\n" <:+: text ∧
      c!"(M(\"n\"), \"B_n_(anonymous_namespace)_A_t\", \"\");\n\t\tcl.def( pybind11::init( [](){ return new n::B<n::(anonymous namespace)::A>(); } ) );\n" <:+: text' ∧
      c!"\tM(\"n\").def(\"f\", (int (*)(n::(anonymous namespace)::E)) &n::f, " <:+: text' ∧
      c!"\tM(\"n\").def(\"g\", (int (*)(n::B<n::(anonymous namespace)::A>)) &n::g, " <:+: text')) (by decide +kernel)
  refine ⟨Ex.unspeakable_wellfounded, by unfold Unnamed; decide, fs', h, ?_⟩
  cases e : fs'.files c!"out/n.cpp" with
  | none => rw [e] at hf; cases hf
  | some text =>
    cases e' : fs'.files c!"out/n_1.cpp" with
    | none => rw [e, e'] at hf; cases hf
    | some text' => rw [e, e'] at hf; exact ⟨text, text', rfl, rfl, of_decide_eq_true hf⟩

/-- A run to which `C110_named_partial` applies. -/
example : ∃ fs', Ex.unit.Ends (Ex.opts 1000) Ex.fsEmpty (.done fs') ∧ ∃ srcs, Generated Ex.unit (Ex.opts 1000) Ex.fsEmpty fs' srcs ∧
    ∀ s ∈ srcs, ∀ F, .fn F ∈ s.bound → ¬ Unnamed F.qname := by
  obtain ⟨fs', h, _⟩ : ∃ fs', Ex.unit.Ends (Ex.opts 1000) Ex.fsEmpty (.done fs') ∧ (fun _ => true) fs' = true :=
    Ex.ends_after (n := 20) (by decide +kernel)
  obtain ⟨srcs, hg, hf, -⟩ := C110_named_partial Ex.unit (Ex.opts 1000) Ex.fsEmpty fs' Ex.fsEmpty_wf (by decide) (Ex.unit_distinct 1000) h (by
    intro F hF
    simp only [Ex.unit, List.mem_cons, reduceCtorEq, List.not_mem_nil, or_false, false_or, Visit.fn.injEq] at hF
    subst hF
    intro h
    exact absurd h (by decide))
  exact ⟨fs', h, srcs, hg, hf⟩

end Binder
