import Verif.Lemmas.Run
import Verif.Basic.TyEq

/-!
# Programs for the examples of `Verif.Props.Run`
-/

namespace Binder

open Cxx

deriving instance DecidableEq for Visit

/-- A test for `p <:+: s`. -/
def hasInfix (p : Str) : Str → Bool
  | [] => p.isPrefixOf []
  | c :: s => p.isPrefixOf (c :: s) || hasInfix p s

theorem hasInfix_iff {p s : Str} : hasInfix p s = true ↔ p <:+: s := by
  induction s with
  | nil => rw [hasInfix, List.isPrefixOf_iff_prefix]; simp
  | cons c s ih => rw [hasInfix, Bool.or_eq_true, ih, List.isPrefixOf_iff_prefix, List.infix_cons_iff]

instance decideInfix (p s : Str) : Decidable (p <:+: s) := decidable_of_iff _ hasInfix_iff

/-- The query answers yes. -/
def saysYes : Except QueryError Bool → Bool
  | .ok true => true
  | _ => false

theorem saysYes_iff {x : Except QueryError Bool} : saysYes x = true ↔ x = .ok true := by
  cases x with
  | error e => simp [saysYes]
  | ok b => cases b <;> simp [saysYes]

/-- The program has the given classes. -/
def withClasses (E : Env) (cs : List Record) : Env := { E with cls := fun i => cs.getD i exampleRecord }

/-- A test for `Env.Wellfounded` for a program with finitely many classes. -/
def rankedF (E : Env) (cs : List Record) : Bool :=
  (List.range cs.length).all fun i =>
    (E.cls i).bases.all (fun b => match b.record with | none => true | some j => decide (E.baseRank j < E.baseRank i)) &&
    ((E.cls i).typeArgs ++ (E.cls i).functionArgTypes).all (fun t => match t.target with
      | none => true | some j => decide (E.argRank j < E.argRank i)) &&
    (E.nestedClasses (E.cls i)).all (fun j => decide (E.nestRank (E.nestedDefinition j) < E.nestRank i))

theorem wellfounded_of_ranked {E : Env} {cs : List Record} (h : rankedF (withClasses E cs) cs = true) : (withClasses E cs).Wellfounded := by
  have key : ∀ i, i < cs.length ∨ (withClasses E cs).cls i = exampleRecord := by
    intro i
    by_cases hi : i < cs.length
    · exact .inl hi
    · refine .inr ?_
      simp [withClasses, List.getD_eq_getElem?_getD, List.getElem?_eq_none (Nat.le_of_not_lt hi)]
  rw [rankedF, List.all_eq_true] at h
  refine ⟨?_, ?_, ?_⟩
  · intro i b hb j hj
    rcases key i with hi | hi
    · have := h i (List.mem_range.2 hi)
      rw [Bool.and_eq_true, Bool.and_eq_true, List.all_eq_true] at this
      have := this.1.1 b hb
      rw [hj] at this
      simpa using this
    · rw [hi] at hb; cases hb
  · intro i t ht j hj
    rcases key i with hi | hi
    · have := h i (List.mem_range.2 hi)
      rw [Bool.and_eq_true, Bool.and_eq_true] at this
      have := List.all_eq_true.1 this.1.2 t ht
      rw [hj] at this
      simpa using this
    · rw [hi] at ht; cases ht
  · intro i j hj
    rcases key i with hi | hi
    · have := h i (List.mem_range.2 hi)
      rw [Bool.and_eq_true] at this
      have := List.all_eq_true.1 this.2 j hj
      simpa using this
    · rw [hi] at hj; cases hj

/-- A class with the given name in a namespace, and the given public base. -/
def exampleIn (ns name : Str) (base : Option Nat) : Record :=
  { exampleRecord with
    name := name, qname := ns ++ c!"::" ++ name, incl := c!"<" ++ ns ++ c!".h>"
    bases := match base with | none => [] | some j => [⟨.pub, false, some j⟩] }

namespace Ex

/-- `namespace m { struct S {}; struct T {}; } namespace n { struct B {}; struct A : B {}; }` -/
def classes : List Record :=
  [exampleIn c!"n" c!"A" (some 1), exampleIn c!"n" c!"B" none, exampleIn c!"m" c!"S" none, exampleIn c!"m" c!"T" none]

def className : Ty → Str
  | .record i => (classes.getD i exampleRecord).qname
  | t => exampleTyName t

/-- The program, with the entry `+namespace n`. -/
def env : Env :=
  withClasses { exampleEnv with tyName := className, cfg := { namespacesToBind := [c!"n"] }, baseRank := fun i => 1 - i } classes

/-- `void n::f(m::S)` -/
def fun_f : Func :=
  { exampleMethod c!"f" false (.basic 0) [⟨c!"s", .record 2, false⟩] with qname := c!"n::f", incl := c!"<n.h>", method := none }

/-- The program `m.h`, `n.h`. Clang comes to `n::A` first here. -/
def unit : TransUnit :=
  { env := env, visits := [.cls 0, .cls 1, .cls 2, .cls 3, .fn fun_f], inSystem := fun _ => false, depth := 20 }

def fsEmpty : FS := ⟨fun _ => none, fun x => x == c!"out", []⟩

/-- The same with a root module from an earlier run. -/
def fsOld : FS := ⟨fun x => if x = c!"out/mod.cpp" then some c!"earlier" else none, fun x => x == c!"out", []⟩

/-- `struct A { struct N {}; }; struct B : A::N {};` -/
def nestedBase : TransUnit :=
  { env := withClasses { exampleEnv with
        cfg := { namespacesToBind := [c!""] }, nestRank := fun i => if i = 0 then 1 else 0, baseRank := fun i => if i = 2 then 1 else 0 }
      [{ exampleRecord with members := [.nested 1] },
       { exampleRecord with name := c!"N", qname := c!"A::N", access := .pub, outer := some 0 },
       { exampleRecord with name := c!"B", qname := c!"B", bases := [⟨.pub, false, some 1⟩] }]
    visits := [.cls 0, .cls 1, .cls 2], inSystem := fun _ => false, depth := 20 }

def orderName : Ty → Str
  | .record i => [c!"X<D>", c!"Base", c!"D", c!"O", c!"O::N"].getD i []
  | t => exampleTyName t

/-- `template<class T> struct X : T {}; struct Base {}; struct D {}; struct O { struct N : Base {}; }; X<D> x;`: clang comes to the instance
of a template with the template. -/
def nestedOrder : TransUnit :=
  { env := withClasses { exampleEnv with
        tyName := orderName, cfg := { namespacesToBind := [c!""] }, nestRank := fun i => if i = 3 then 1 else 0
        baseRank := fun i => if i = 0 || i = 4 then 1 else 0, argRank := fun i => if i = 0 then 1 else 0 }
      [{ exampleRecord with name := c!"X", qname := c!"X", targs := some [⟨c!"D", .type (.record 2)⟩], bases := [⟨.pub, false, some 2⟩] },
       { exampleRecord with name := c!"Base", qname := c!"Base" },
       { exampleRecord with name := c!"D", qname := c!"D" },
       { exampleRecord with name := c!"O", qname := c!"O", members := [.nested 4] },
       { exampleRecord with name := c!"N", qname := c!"O::N", access := .pub, outer := some 3, bases := [⟨.pub, false, some 1⟩] }]
    visits := [.cls 0, .cls 1, .cls 2, .cls 3, .cls 4], inSystem := fun _ => false, depth := 20 }

/-- The files after a run that returns. -/
def after : Option Outcome → Option FS
  | some (.done fs) => some fs
  | _ => none

/-- The files after a run that calls `exit`. -/
def afterExit : Option Outcome → Option FS
  | some (.exit fs) => some fs
  | _ => none

theorem after_some {r : Option Outcome} {fs : FS} (h : after r = some fs) : r = some (.done fs) := by
  unfold after at h; split at h <;> cases h; rfl

theorem afterExit_some {r : Option Outcome} {fs : FS} (h : afterExit r = some fs) : r = some (.exit fs) := by
  unfold afterExit at h; split at h <;> cases h; rfl

theorem ends_after {U : TransUnit} {n : Nat} {o : Opts} {fs : FS} {P : FS → Bool} (h : (after (U.runF n o fs)).any P = true) :
    ∃ fs', U.Ends o fs (.done fs') ∧ P fs' = true := by
  cases e : after (U.runF n o fs) with
  | none => rw [e] at h; cases h
  | some fs' => rw [e] at h; exact ⟨fs', ⟨n, after_some e⟩, h⟩

theorem ends_afterExit {U : TransUnit} {n : Nat} {o : Opts} {fs : FS} {P : FS → Bool} (h : (afterExit (U.runF n o fs)).any P = true) :
    ∃ fs', U.Ends o fs (.exit fs') ∧ P fs' = true := by
  cases e : afterExit (U.runF n o fs) with
  | none => rw [e] at h; cases h
  | some fs' => rw [e] at h; exact ⟨fs', ⟨n, afterExit_some e⟩, h⟩

theorem fsEmpty_wf : fsEmpty.WF := by
  intro p hp
  rfl

end Ex

theorem Ex.env_wellfounded : Ex.unit.env.Wellfounded := wellfounded_of_ranked (by decide)
theorem Ex.nestedBase_wellfounded : Ex.nestedBase.env.Wellfounded := wellfounded_of_ranked (by decide)
theorem Ex.nestedOrder_wellfounded : Ex.nestedOrder.env.Wellfounded := wellfounded_of_ranked (by decide)

/-- No generated source for `m.h` and `n.h` has the name of another one. -/
theorem Ex.unit_distinct (n : Nat) : Spec.DistinctNames Ex.unit (Ex.opts n) := by
  refine .inr (.inr ?_)
  have key : ∀ v ∈ Ex.unit.visits, fileNamePrefix (Ex.unit.decl v).incl (Spec.namespaceOf Ex.unit.E v) = c!"m" ∨
      fileNamePrefix (Ex.unit.decl v).incl (Spec.namespaceOf Ex.unit.E v) = c!"n" := by
    intro v hv
    simp only [Ex.unit, List.mem_cons, List.not_mem_nil, or_false] at hv
    rcases hv with rfl | rfl | rfl | rfl | rfl
    · exact .inr (by decide +kernel)
    · exact .inr (by decide +kernel)
    · exact .inl (by decide +kernel)
    · exact .inl (by decide +kernel)
    · exact .inr (by decide +kernel)
  have rep : replaceAll c!"m" c!"/" c!"_" = c!"m" ∧ replaceAll c!"n" c!"/" c!"_" = c!"n" := by decide
  refine ⟨?_, ?_, ?_⟩
  · intro v hv k h
    simp only at h
    rcases key v hv with e | e <;> rw [e] at h <;> by_cases hk : k = 0 <;> simp [hk, Ex.opts] at h
  · intro v hv w hw k _ h
    simp only at h
    rcases key v hv with e | e <;> rcases key w hw with e' | e' <;> rw [e, e'] at h <;> simp [rep] at h
  · intro v hv w hw h
    simp only at h ⊢
    rcases key v hv with e | e <;> rcases key w hw with e' | e' <;> rw [e, e'] at h ⊢ <;> simp [rep] at h

end Binder
