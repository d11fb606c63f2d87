import Verif.Spec.Address
import Verif.Props.Overload
import Verif.Props.Types

/-!
# C104: the address in a `def` statement is the address of the bound function

With all arguments, the generated code casts `&name` to the type of the function (C41). C++ chooses among all functions of that name the
one that has this type, `Spec/Address.lean`. For calls with fewer arguments see C102.
-/

namespace Binder

open Cxx Spec

variable (E : Env)

/-- The cast and the name in the address of a function: the cast is the text for a type `T` of functions without qualifiers other than
`const`. The cast has no `...`. -/
structure AddressFor (F : Func) (parent : Option Nat) (p : Pointer) (T : FunctionType) : Prop where
  target : p.target = calledName E F parent ++ functionTemplateText E F
  cls : p.cls = match T.cls with
    | some i => classQualifiedName E (E.cls i) ++ c!"::"
    | none => []
  ret : ∃ t : Ty, t.canon = T.ret ∧ p.ret = stdTy E t
  params : ∃ ts : List Ty, ts.map adjusted = T.params ∧ p.types = ts.map (stdTy E)
  isVariadic : T.isVariadic = false
  isConst : p.isConst = T.isConst
  quals : T.quals = .plain

/-- The `const` of clang is for member functions that are not static. -/
def ConstMembers (F : Func) : Prop := ∀ m, F.method = some m → m.isStatic = true → m.isConst = false

/-- C104, partial. The last `def` statement of a function, if it is no lambda, has the address of a name, cast to a type. Whatever
functions have that name in the scope of the function, C++ takes the address of the bound function exactly if the function has no
qualifiers other than `const`. Others occur in C++ programs, see `C104_qualifier_false`. -/
theorem C104_address_partial (module : Str) (F : Func) (parent : Option Nat) (d : Nat) (hd : MinArity F.params d)
    (hv : F.isVariadic = false) (hc : ConstMembers F) :
    ∃ (comment : Str) (defs : List Def) (last : Def), bindFunctionText E module F parent false =
        comment ++ (defs.map fun x => module ++ x.text ++ c!"\n").flatten ∧ defs.getLast? = some last ∧
      ∃ (p : Pointer) (T : FunctionType), last.callable = p.text ∧ AddressFor E F parent p T ∧
        ∀ (quals : Func → Quals) (scope : List Func), F ∈ scope → (∀ G ∈ scope, G ≠ F → CanOverload quals F G) →
          (StandsFor quals scope T F ↔ (F.isInstance = true → quals F = .plain)) := by
  obtain ⟨comment, defs, htext, -, -, hlen, hdefs⟩ := C41_overloads E module F parent false d hd
  have hdl : d ≤ F.params.length := hd.1
  have hlast : F.params.length - d < defs.length := by omega
  refine ⟨comment, defs, defs[F.params.length - d], htext, ?_, ?_⟩
  · rw [List.getLast?_eq_getElem?, hlen, show F.params.length + 1 - d - 1 = F.params.length - d by omega]
    exact List.getElem?_eq_getElem hlast
  obtain ⟨p, hp, hret, htypes, hconst, htarget, hcls⟩ := (hdefs _ hlast).2.2.direct (by omega) rfl hv
  have hcc : F.isConst = (F.isConst && (ownClass F).isSome) := by
    cases hm : F.method with
    | none => simp [Func.isConst, hm]
    | some m =>
      cases hs : m.isStatic with
      | true => simp [Func.isConst, hm, hc m hm hs]
      | false => simp [ownClass, hm, hs]
  have hi : F.isInstance = (ownClass F).isSome := by
    cases hm : F.method with
    | none => simp [Func.isInstance, ownClass, hm]
    | some m => cases hs : m.isStatic <;> simp [Func.isInstance, ownClass, hm, hs]
  refine ⟨p, typeOf F .plain, hp, ⟨htarget, ?_, ⟨F.ret, rfl, hret⟩, ⟨F.params.map (·.ty), ?_, ?_⟩, hv, ?_, ?_⟩, ?_⟩
  · rw [hcls]
    simp only [typeOf, ownClass]
    cases F.method with
    | none => rfl
    | some m => cases hs : m.isStatic <;> simp [hs]
  · simp [typeOf, Function.comp_def]
  · rw [htypes]; simp
  · rw [hconst]; exact hcc
  · simp [typeOf]
  intro quals scope hF hover
  constructor
  · intro h hinst
    have := congrArg FunctionType.quals h.type
    rw [hi] at hinst
    simpa [typeOf, hinst] using this
  · intro hq
    have htype : typeOf F (quals F) = typeOf F .plain := by
      cases h : (ownClass F).isSome with
      | true => rw [hq (by rw [hi, h])]
      | false => simp [typeOf, h]
    refine ⟨hF, htype, fun G hG hT => Classical.byContradiction fun hne => ?_⟩
    have hT : typeOf G (quals G) = typeOf F (quals F) := hT.trans htype.symm
    have hcl : ownClass G = ownClass F := congrArg FunctionType.cls hT
    rcases hover G hG hne with h | h | ⟨h1, h2, h⟩
    · exact h (congrArg FunctionType.params hT).symm
    · exact h (congrArg FunctionType.isVariadic hT).symm
    · rcases h with h | h
      · have := congrArg FunctionType.isConst hT
        simp only [typeOf, h1, h2, Bool.and_true] at this
        exact h this.symm
      · have := congrArg FunctionType.quals hT
        simp only [typeOf, h1, h2, if_true] at this
        exact h this.symm

namespace Ex

/-- `int A::f() &`, number 1, and `int A::f() &&`, number 2, or two other functions of this form. -/
def qualified (n : Nat) : Func := { exampleMethod c!"f" false (.basic 0) [] with ptr := n }

/-- The qualifiers of the functions above. -/
def refQuals (F : Func) : Quals := ⟨false, if F.ptr = 1 then .lvalue else .rvalue⟩

end Ex

/-- C104 is false for `struct A { int f() &; int f() &&; };`. Both functions are bound, both as `(int (A::*)()) &A::f`, and no function of
that name has this type. So the generated code does not compile. -/
theorem C104_qualifier_false : ∃ (E : Env) (F G : Func) (quals : Func → Quals), (E.cls 0).methods = [F, G] ∧ CanOverload quals F G ∧
    functionBindable E F = true ∧ functionBindable E G = true ∧
    (∀ H ∈ [F, G], bindFunctionText E c!"\tcl" H none false = c!"\tcl.def(\"f\", (int (A::*)()) &A::f, \"C++: A::f() --> int\");\n") ∧
    ∀ H, ¬ StandsFor quals (E.cls 0).methods ⟨some 0, .basic 0, [], false, false, .plain⟩ H := by
  refine ⟨Ex.withMethods [Ex.qualified 1, Ex.qualified 2], Ex.qualified 1, Ex.qualified 2, Ex.refQuals, by rfl,
    .inr (.inr ⟨rfl, rfl, .inr (by decide)⟩), by decide +kernel, by decide +kernel, by decide +kernel, ?_⟩
  intro H h
  have hm : ((Ex.withMethods [Ex.qualified 1, Ex.qualified 2]).cls 0).methods = [Ex.qualified 1, Ex.qualified 2] := rfl
  have hF := h.found
  rw [hm] at hF
  simp only [List.mem_cons, List.not_mem_nil, or_false] at hF
  have hq := congrArg FunctionType.quals h.type
  rcases hF with rfl | rfl <;> revert hq <;> decide

/-- A case of `C104_address_partial`: `int A::f(int x)` beside `int A::f(A x, int n = 0)`. -/
example : MinArity Ex.objectInt.params 1 ∧ Ex.objectInt.isVariadic = false ∧ ConstMembers Ex.objectInt ∧
    CanOverload (fun _ => .plain) Ex.objectInt Ex.oneInt ∧
    StandsFor (fun _ => .plain) [Ex.objectInt, Ex.oneInt] ⟨some 0, .basic 0, [.record 0, .basic 0], false, false, .plain⟩ Ex.objectInt := by
  refine ⟨(minArity_iff _ _).2 (by decide), rfl, fun m _ h => ?_, .inl ?_, by simp, rfl, fun G hG hT => ?_⟩
  · rename_i hm; cases hm; cases h
  · intro h; have := congrArg List.length h; revert this; decide
  · simp only [List.mem_cons, List.not_mem_nil, or_false] at hG
    rcases hG with rfl | rfl
    · rfl
    · have := congrArg (fun T => T.params.length) hT
      revert this; decide

/-! ### The text of the cast -/

theorem beforeName_canon : ∀ (t : Ty), (∀ u, Mentions t u → (∀ v, u.head ≠ .arr v) ∧ ∀ r ps, u.head ≠ .fn r ps) → BeforeName t.canon
  | .basic _, _ => .basic
  | .dep _, _ => .dep
  | .record _, _ => .record
  | .enum _, _ => .enum
  | .arr v, h => absurd rfl ((h _ .refl).1 v)
  | .fn r ps, h => absurd rfl ((h _ .refl).2 r ps)
  | .sugar _ t, h => by rw [Ty.canon]; exact beforeName_canon t fun u hu => h u (.sugar hu)
  | .ptr t, h => by rw [Ty.canon]; exact .ptr (beforeName_canon t fun u hu => h u (.ptr hu))
  | .const t, h => by
    have ih := beforeName_canon t fun u hu => h u (.const hu)
    rw [Ty.canon]
    generalize t.canon = c at ih
    cases ih <;> first | exact .lref ‹_› | exact .rref ‹_› | exact .const ‹_› | (constructor; constructor; assumption) | (constructor; constructor; done)
  | .lref t, h => by
    have ih := beforeName_canon t fun u hu => h u (.lref hu)
    rw [Ty.canon]
    generalize t.canon = c at ih
    cases ih <;> first | exact .lref ‹_› | (constructor; constructor; assumption) | (constructor; constructor; done)
  | .rref t, h => by
    have ih := beforeName_canon t fun u hu => h u (.rref hu)
    rw [Ty.canon]
    generalize t.canon = c at ih
    cases ih <;> first | exact .lref ‹_› | exact .rref ‹_› | (constructor; constructor; assumption) | (constructor; constructor; done)

/-- C104, partial. In the cast, the text of the result comes before ` (C::*)(...)`, and that is a type of functions with this result only
if C++ writes the type completely before a name. That is so for bindable functions whose result has no function type, and no pointers or
references behind typedefs. Not so for all others, see `C104_result_false` and `C104_typedef_false`. -/
theorem C104_result_partial (F : Func) (hb : functionBindable E F = true) (hu : Unhidden F.ret)
    (hf : ∀ u, Mentions F.ret u → ∀ r ps, u.head ≠ .fn r ps) : BeforeName F.ret.canon :=
  beforeName_canon F.ret fun u h => ⟨fun v => ((C47_functions_partial E F hb).2 hu u h).noArray v, hf u h⟩

/-- The names of `int (&)(int)` and `int (&)[3]`, and those of other types. -/
def declaratorTyName : Ty → Str
  | .lref (.fn _ _) => c!"int (&)(int)"
  | .lref (.arr _) => c!"int (&)[3]"
  | t => exampleTyName t

/-- A program with class `A` and the types above. -/
def declaratorEnv : Env := { exampleEnv with tyName := declaratorTyName }

/-- C104 is false for functions that return references to functions, like `int (&A::f())(int)`: the function is bound, and
`int (&)(int) (A::*)()` is no C++ type. -/
theorem C104_result_false : ∃ F : Func, functionBindable declaratorEnv F = true ∧ Unhidden F.ret ∧ ¬ BeforeName F.ret.canon ∧
    bindFunctionText declaratorEnv c!"\tcl" F none false =
      c!"\tcl.def(\"f\", (int (&)(int) (A::*)()) &A::f, \"C++: A::f() --> int (&)(int)\", pybind11::return_value_policy::automatic);\n" := by
  refine ⟨exampleMethod c!"f" false (.lref (.fn (.basic 0) [.basic 0])) [], by decide +kernel,
    .lref (.leaf (by intro u h; cases h) (by intro u h; cases h) (by intro u h; cases h)), ?_, by decide +kernel⟩
  intro h
  have e : (Ty.lref (.fn (.basic 0) [.basic 0])).canon = .lref (.fn (.basic 0) [.basic 0]) := rfl
  change BeforeName (Ty.lref (.fn (.basic 0) [.basic 0])).canon at h
  rw [e] at h
  cases h with
  | lref h => cases h

/-- C104 is false for functions that return references to arrays by a typedef, like `typedef int (&R)[3]; R A::f();`. -/
theorem C104_typedef_false : ∃ F : Func, functionBindable declaratorEnv F = true ∧ ¬ BeforeName F.ret.canon ∧
    bindFunctionText declaratorEnv c!"\tcl" F none false =
      c!"\tcl.def(\"f\", (int (&)[3] (A::*)()) &A::f, \"C++: A::f() --> int (&)[3]\", pybind11::return_value_policy::automatic);\n" := by
  refine ⟨exampleMethod c!"f" false (.sugar 0 (.lref (.arr (.basic 0)))) [], by decide +kernel, ?_, by decide +kernel⟩
  intro h
  change BeforeName (Ty.lref (.arr (.basic 0))) at h
  cases h with
  | lref h => cases h

/-- A case of `C104_result_partial`: a function with result `A const &`. -/
example : functionBindable exampleEnv (exampleMethod c!"f" false (.lref (.const (.record 0))) []) = true ∧
    Unhidden (.lref (.const (.record 0))) ∧ ∀ u, Mentions (.lref (.const (.record 0))) u → ∀ r ps, u.head ≠ .fn r ps := by
  refine ⟨by decide +kernel, .lref (.const (.leaf (by intro u h; cases h) (by intro u h; cases h) (by intro u h; cases h))), ?_⟩
  intro u h r ps he
  cases h with
  | refl => cases he
  | lref h =>
    cases h with
    | refl => cases he
    | const h => cases h with | refl => cases he

end Binder
