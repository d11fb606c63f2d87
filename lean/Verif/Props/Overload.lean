import Verif.Lemmas.Overload
import Verif.Props.Call

/-!
# C102: a call that leaves out default arguments compiles and calls the bound function

With all arguments, the generated code names the function by its type (C41). With fewer arguments it is a lambda with a call, and C++
chooses among all functions of that name, `Spec/Overload.lean`.
-/

namespace Binder

open Cxx Spec

variable (E : Env)

/-- A lambda whose parameters stand for the first `k` parameters of `F`, after the object for member functions, and that passes all of
them to a call by name. `D` are the types that its parameters are declared with. -/
structure LambdaFor (F : Func) (parent : Option Nat) (k : Nat) (l : Lambda) (D : List Ty) : Prop where
  args : l.args = argNames k
  /-- A member function is called by its name on the object, which is `const` for `const` member functions. -/
  member : ∀ m, F.method = some m → m.isStatic = false → l.callee = c!"o." ++ F.name ∧
    (l.params.take 1) = [(classQualifiedName E (E.cls (parent.getD m.parent)) ++ (if m.isConst then c!" const" else []) ++ c!" &", c!"o")]
  /-- Other functions are called by their qualified name. -/
  other : (∀ m, F.method = some m → m.isStatic = true) → l.callee = calledName E F parent
  number : D.length = k ∧ l.params.length = (if F.isInstance then k + 1 else k)
  types : ∀ i, ∀ p, F.params[i]? = some p → i < k → ∃ suffix t,
    l.params[if F.isInstance then i + 1 else i]? = some (stdTy E p.ty ++ suffix, c!"a" ++ Nat.toDigits 10 i) ∧
    declared p.ty suffix = some t ∧ D[i]? = some t

theorem bindable_no_rvalue {F : Func} (hb : functionBindable E F = true) : ∀ p ∈ F.params, ¬ RvalueRef p.ty := by
  rintro p hp ⟨u, hu⟩
  simp only [functionBindable, Bool.and_eq_true, List.all_eq_true] at hb
  have := hb.1.2 p hp
  rw [hu] at this
  simp [tyBindable, tyBindableWith, tyHeadOk, Ty.isRRef, Ty.head] at this

theorem lambdaTypes (F : Func) (k : Nat) (hk : k ≤ F.params.length) (hr : ∀ p ∈ F.params, ¬ RvalueRef p.ty)
    (hf : ¬ ∃ p ∈ F.params, IsFunction p.ty.canon) :
    ∃ D : List Ty, D.length = k ∧
      (∀ i p, F.params[i]? = some p → i < k → ∃ suffix t,
        ((F.params.take k).mapIdx fun i p => lambdaParamOf E p i)[i]? = some (stdTy E p.ty ++ suffix, c!"a" ++ Nat.toDigits 10 i) ∧
        declared p.ty suffix = some t ∧ D[i]? = some t) ∧
      D.map variableOf = (F.params.take k).map fun p => argOf p.ty.canon := by
  have hex : ∀ p ∈ F.params, ∃ D, declared p.ty (lambdaSuffix p.ty) = some D ∧ variableOf D = argOf p.ty.canon := fun p hp =>
    declared_suffix p.ty (fun h => hf ⟨p, hp, h⟩) (hr p hp)
  refine ⟨(F.params.take k).map fun p => (declared p.ty (lambdaSuffix p.ty)).getD p.ty, by simp; omega, ?_, ?_⟩
  · intro i p hp hi
    obtain ⟨t, ht, -⟩ := hex p (List.mem_of_getElem? hp)
    exact ⟨lambdaSuffix p.ty, t, by simp [List.getElem?_mapIdx, List.getElem?_take, hi, hp, lambdaParamOf, lambdaSuffix], ht,
      by simp [List.getElem?_take, hi, hp, ht]⟩
  · simp only [List.map_map]
    refine List.map_congr_left fun p hp => ?_
    obtain ⟨t, ht, hv⟩ := hex p (List.mem_of_mem_take hp)
    simp [ht, hv]

theorem lambdaFor (F : Func) (parent : Option Nat) (lam : Bool) (k : Nat) (hk : k ≤ F.params.length) (callable : Str)
    (h : Forwards E F parent lam k callable) (hl : k < F.params.length ∨ lam = true ∨ F.isVariadic = true)
    (hr : ∀ p ∈ F.params, ¬ RvalueRef p.ty) (hf : ¬ ∃ p ∈ F.params, IsFunction p.ty.canon) :
    ∃ (l : Lambda) (D : List Ty), callable = l.text ∧ LambdaFor E F parent k l D ∧
      D.map variableOf = (F.params.take k).map fun p => argOf p.ty.canon := by
  obtain ⟨l, htext, -, hargs, ps, hps, hm⟩ := h.lambda hl
  have hlen : ps.length = k := by rw [hps]; simp; omega
  obtain ⟨D, hDlen, htypes, hvar⟩ := lambdaTypes E F k hk hr hf
  rw [← hps] at htypes
  refine ⟨l, D, htext, ?_, hvar⟩
  · cases hmeth : F.method with
    | none =>
      rw [hmeth] at hm
      have hi : F.isInstance = false := by simp [Func.isInstance, hmeth]
      refine ⟨hargs, fun m h => (by rw [hmeth] at h; cases h), fun _ => hm.1, ⟨hDlen, by rw [hm.2, hlen, hi]; rfl⟩, ?_⟩
      intro i p hp hik
      rw [hm.2, hi]
      exact htypes i p hp hik
    | some m =>
      rw [hmeth] at hm
      dsimp only at hm
      cases hs : m.isStatic with
      | true =>
        rw [hs, if_pos rfl] at hm
        have hi : F.isInstance = false := by simp [Func.isInstance, hmeth, hs]
        refine ⟨hargs, fun m' h h' => (by rw [hmeth] at h; cases h; rw [hs] at h'; cases h'), fun _ => hm.1,
          ⟨hDlen, by rw [hm.2, hlen, hi]; rfl⟩, ?_⟩
        intro i p hp hik
        rw [hm.2, hi]
        exact htypes i p hp hik
      | false =>
        rw [hs, if_neg (by simp)] at hm
        have hi : F.isInstance = true := by simp [Func.isInstance, hmeth, hs]
        refine ⟨hargs, fun m' h _ => (by rw [hmeth] at h; cases h; exact ⟨hm.1, by rw [hm.2]; rfl⟩),
          fun h => (by have := h m hmeth; rw [hs] at this; cases this), ⟨hDlen, by rw [hm.2, List.length_cons, hlen, hi]; rfl⟩, ?_⟩
        intro i p hp hik
        rw [hm.2, hi]
        exact htypes i p hp hik

/-- C102, partial. Every `def` statement of a bindable function that is a lambda, because it leaves out arguments, calls a function by
its name with variables of the types of the first `k` parameters. Whatever functions `scope` have that name: this call reaches the bound
function exactly if its first `k` parameters tell it apart from each of the others, and it can pass its arguments exactly if the
classes among them that the function takes by value can be copied. Not all functions of a C++ program are like that, see
`C102_ambiguous_false` and `C102_copy_false`. -/
theorem C102_selected_partial (module : Str) (F : Func) (parent : Option Nat) (lam : Bool) (d : Nat) (hd : MinArity F.params d)
    (hb : functionBindable E F = true) (hdef : DefaultsLast F.params) :
    ∃ (comment : Str) (defs : List Def), bindFunctionText E module F parent lam =
        comment ++ (defs.map fun x => module ++ x.text ++ c!"\n").flatten ∧ defs.length = F.params.length + 1 - d ∧
      ∀ i, ∀ h : i < defs.length, (d + i < F.params.length ∨ lam = true ∨ F.isVariadic = true) →
        (¬ ∃ p ∈ F.params, IsFunction p.ty.canon) →
        ∃ (l : Lambda) (D : List Ty), (defs[i]).callable = l.text ∧ LambdaFor E F parent (d + i) l D ∧
          let call : Call := ⟨if F.isInstance then some F.isConst else none, D.map variableOf⟩
          (∀ (conv : Arg → Ty → Prop) (scope : List Func), F ∈ scope →
            (Selects conv call scope F ↔ ∀ G ∈ scope, G ≠ F → TellsApart F G (d + i))) ∧
          ∀ copyable : Nat → Prop, Passes copyable call F ↔
            ∀ p ∈ F.params.take (d + i), ∀ r, p.ty.canon.unqual = .record r → copyable r := by
  obtain ⟨comment, defs, htext, -, -, hlen, hdefs⟩ := C41_overloads E module F parent lam d hd
  refine ⟨comment, defs, htext, hlen, fun i h hl hf => ?_⟩
  have hk : d + i ≤ F.params.length := by rw [hlen] at h; omega
  have hr := bindable_no_rvalue E hb
  obtain ⟨l, D, hl, hfor, hvar⟩ := lambdaFor E F parent lam (d + i) hk _ (hdefs i h).2.2 hl hr hf
  refine ⟨l, D, hl, hfor, ?_⟩
  have hcall : (⟨if F.isInstance then some F.isConst else none, D.map variableOf⟩ : Call) = ownCall (fun t => argOf t.canon) F (d + i) := by rw [hvar]; rfl
  simp only [hcall]
  rw [minArity_iff] at hd
  refine ⟨fun conv scope hF => selects_iff F (d + i) hk (left_out hdef (by omega)) hr conv scope hF, fun copyable => ?_⟩
  exact passes_iff _ F (d + i) hk copyable

namespace Ex

/-- `int A::f(int x)`. -/
def oneInt : Func := exampleMethod c!"f" false (.basic 0) [⟨c!"x", .basic 0, false⟩]

/-- `int A::f(int x, int n = 0)`. -/
def twoInts : Func := exampleMethod c!"f" false (.basic 0) [⟨c!"x", .basic 0, false⟩, ⟨c!"n", .basic 0, true⟩]

/-- `int A::f(A x, int n = 0)`. -/
def objectInt : Func := exampleMethod c!"f" false (.basic 0) [⟨c!"x", .record 0, false⟩, ⟨c!"n", .basic 0, true⟩]

/-- A program in which class `A` has the given functions. -/
def withMethods (Fs : List Func) : Env :=
  { exampleEnv with cls := fun _ => { exampleRecord with members := Fs.map .method } }

end Ex

/-- C102 is false for `struct A { int f(int x); int f(int x, int n = 0); };`, which C++ accepts. Both functions are bound; the lambda that
leaves out `n` calls `o.f(a0)`, and that reaches no function, because both are equally good. So the generated code does not compile. -/
theorem C102_ambiguous_false : ∃ (E : Env) (F G : Func), (E.cls 0).methods = [F, G] ∧ functionBindable E F = true ∧
    functionBindable E G = true ∧ bindFunctionText E c!"\tcl" F none false =
      c!"\tcl.def(\"f\", [](A &o, int const & a0) -> int { return o.f(a0); }, \"\", pybind11::arg(\"x\"));\n\tcl.def(\"f\", (int (A::*)(int, int)) &A::f, \"C++: A::f(int, int) --> int\", pybind11::arg(\"x\"), pybind11::arg(\"n\"));\n" ∧
    ∀ (conv : Arg → Ty → Prop) (H : Func),
      ¬ Selects conv ⟨some false, [variableOf (.lref (.const (.basic 0)))]⟩ (E.cls 0).methods H := by
  refine ⟨Ex.withMethods [Ex.twoInts, Ex.oneInt], Ex.twoInts, Ex.oneInt, by rfl, by decide +kernel, by decide +kernel, by decide +kernel, ?_⟩
  intro conv H hs
  have e : (⟨some false, [variableOf (.lref (.const (.basic 0)))]⟩ : Call) = ownCall (fun t => argOf t.canon) Ex.twoInts 1 := rfl
  have e' : (⟨some false, [variableOf (.lref (.const (.basic 0)))]⟩ : Call) = ownCall (fun t => argOf t.canon) Ex.oneInt 1 := rfl
  have hm : ((Ex.withMethods [Ex.twoInts, Ex.oneInt]).cls 0).methods = [Ex.twoInts, Ex.oneInt] := rfl
  rw [hm] at hs
  have hr : ∀ p ∈ Ex.twoInts.params, ¬ RvalueRef p.ty := by
    intro p hp ⟨u, hu⟩
    simp [Ex.twoInts, exampleMethod] at hp
    rcases hp with rfl | rfl <;> simp [Ty.canon] at hu
  have hr' : ∀ p ∈ Ex.oneInt.params, ¬ RvalueRef p.ty := fun p hp => hr p (by
    simp [Ex.oneInt, exampleMethod] at hp; subst hp; simp [Ex.twoInts, exampleMethod])
  have hne : Ex.oneInt ≠ Ex.twoInts := fun h => by
    have := congrArg (fun F : Func => F.params.length) h
    simp [Ex.oneInt, Ex.twoInts, exampleMethod] at this
  have hH := hs.found
  simp only [List.mem_cons, List.not_mem_nil, or_false] at hH
  rcases hH with rfl | rfl
  · rw [e] at hs
    rcases (selects_iff Ex.twoInts 1 (by decide) (by decide) hr conv _ (by simp)).1 hs Ex.oneInt (by simp) hne with h | h | ⟨i, p, hi, hp, h⟩
    · exact h ⟨by decide, .inl (by decide)⟩
    · exact h.2.2 rfl
    · obtain rfl : i = 0 := by omega
      cases hp
      rcases h (.basic 0) rfl with h | ⟨u, hu⟩ | ⟨⟨u, hu, -⟩, -⟩ | ⟨⟨u, hu, -⟩, -⟩
      · exact h rfl
      all_goals simp [Ty.canon] at hu
  · rw [e'] at hs
    rcases (selects_iff Ex.oneInt 1 (by decide) (by decide) hr' conv _ (by simp)).1 hs Ex.twoInts (by simp) hne.symm with h | h | ⟨i, p, hi, hp, h⟩
    · exact h ⟨by decide, .inl (by decide)⟩
    · exact h.2.2 rfl
    · obtain rfl : i = 0 := by omega
      cases hp
      rcases h (.basic 0) rfl with h | ⟨u, hu⟩ | ⟨⟨u, hu, -⟩, -⟩ | ⟨⟨u, hu, -⟩, -⟩
      · exact h rfl
      all_goals simp [Ty.canon] at hu

/-- C102 is false for functions that take a class by value that cannot be copied, like `int A::f(A x, int n = 0)` if `A` can only be
moved. C++ accepts calls of it with `std::move` or with the result of another function, but the lambda passes on the variable `a0`. -/
theorem C102_copy_false : ∃ (E : Env) (F : Func), (E.cls 0).methods = [F] ∧ functionBindable E F = true ∧
    bindFunctionText E c!"\tcl" F none false =
      c!"\tcl.def(\"f\", [](A &o, A const & a0) -> int { return o.f(a0); }, \"\", pybind11::arg(\"x\"));\n\tcl.def(\"f\", (int (A::*)(A, int)) &A::f, \"C++: A::f(A, int) --> int\", pybind11::arg(\"x\"), pybind11::arg(\"n\"));\n" ∧
    ∀ copyable : Nat → Prop, ¬ copyable 0 → ¬ Passes copyable ⟨some false, [variableOf (.lref (.const (.record 0)))]⟩ F := by
  refine ⟨Ex.withMethods [Ex.objectInt], Ex.objectInt, by rfl, by decide +kernel, by decide +kernel, fun copyable hn hp => hn ?_⟩
  exact hp 0 (.record 0) 0 (by decide) rfl rfl

/-- A case of `C102_selected_partial`: `int A::f(A x, int n = 0)` beside `int A::f(int x)`. The first parameters differ, so the lambda
that leaves out `n` reaches the function. -/
example : functionBindable (Ex.withMethods [Ex.objectInt, Ex.oneInt]) Ex.objectInt = true ∧ MinArity Ex.objectInt.params 1 ∧
    DefaultsLast Ex.objectInt.params ∧
    ∀ G ∈ ((Ex.withMethods [Ex.objectInt, Ex.oneInt]).cls 0).methods, G ≠ Ex.objectInt → TellsApart Ex.objectInt G 1 := by
  refine ⟨by decide +kernel, (minArity_iff _ _).2 (by decide), by simp [DefaultsLast, Ex.objectInt, exampleMethod], ?_⟩
  intro G hG hne
  have hm : ((Ex.withMethods [Ex.objectInt, Ex.oneInt]).cls 0).methods = [Ex.objectInt, Ex.oneInt] := rfl
  rw [hm] at hG
  simp only [List.mem_cons, List.not_mem_nil, or_false] at hG
  rcases hG with rfl | rfl
  · exact absurd rfl hne
  · refine .inr (.inr ⟨0, .record 0, by omega, rfl, fun q hq => .inl ?_⟩)
    cases hq
    simp [bare, Ty.canon, Ty.unqual]

end Binder
