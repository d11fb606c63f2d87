import Verif.Props.Address
import Verif.Props.Fallback

/-!
# C106: the functions of a callback structure override the virtual functions they stand for
-/

namespace Binder

open Cxx Spec

variable (E : Env)

theorem beforeName_of_canon : ∀ (t : Ty), (∀ u, Mentions t.canon u → (∀ v, u.head ≠ .arr v) ∧ ∀ r ps, u.head ≠ .fn r ps) → BeforeName t.canon
  | .basic _, _ => .basic
  | .dep _, _ => .dep
  | .record _, _ => .record
  | .enum _, _ => .enum
  | .arr v, h => absurd rfl ((h _ .refl).1 v.canon)
  | .fn r ps, h => absurd rfl ((h _ .refl).2 r.canon (Ty.canonList ps))
  | .sugar _ t, h => by rw [Ty.canon] at h ⊢; exact beforeName_of_canon t h
  | .ptr t, h => by rw [Ty.canon] at h ⊢; exact .ptr (beforeName_of_canon t fun u hu => h u (.ptr hu))
  | .const t, h => by
    have ih := beforeName_of_canon t fun u hu => (by
      rw [Ty.canon] at h
      generalize t.canon = c at h hu
      cases c
      case const => exact h u hu
      case lref => exact h u hu
      case rref => exact h u hu
      all_goals exact h u (.const hu))
    rw [Ty.canon]
    generalize t.canon = c at ih
    cases ih <;> first | exact .lref ‹_› | exact .rref ‹_› | exact .const ‹_› | (constructor; constructor; assumption) | (constructor; constructor; done)
  | .lref t, h => by
    by_cases hf : (∃ u, t.canon = .rref u)
    · obtain ⟨u, hu⟩ := hf
      have ih := beforeName_of_canon t fun v hv => (by
        rw [Ty.canon, hu] at h
        rw [hu] at hv
        cases hv with
        | refl => exact ⟨fun v e => (by cases e), fun r ps e => (by cases e)⟩
        | rref hv => exact h v (.lref hv))
      rw [Ty.canon]
      rw [hu] at ih ⊢
      cases ih with
      | rref h => exact .lref h
    have ih := beforeName_of_canon t fun u hu => (by
      rw [Ty.canon] at h
      generalize t.canon = c at h hu hf
      cases c
      case lref => exact h u hu
      case rref => exact absurd ⟨_, rfl⟩ hf
      all_goals exact h u (.lref hu))
    rw [Ty.canon]
    generalize t.canon = c at ih
    cases ih <;> first | exact .lref ‹_› | (constructor; constructor; assumption) | (constructor; constructor; done)
  | .rref t, h => by
    have ih := beforeName_of_canon t fun u hu => (by
      rw [Ty.canon] at h
      generalize t.canon = c at h hu
      cases c
      case lref => exact h u hu
      case rref => exact h u hu
      all_goals exact h u (.rref hu))
    rw [Ty.canon]
    generalize t.canon = c at ih
    cases ih <;> first | exact .lref ‹_› | exact .rref ‹_› | (constructor; constructor; assumption) | (constructor; constructor; done)

/-- C106, partial. Every function of the callback structure of class `i` is declared with the name, the types of the parameters and the `const`
of a method. So it overrides that method exactly if the method has no other qualifiers. Its parameters are declared as `T a0`, and that is
C++ if `T` is written completely before the name; the method may not take references to functions. The same holds for its result, if
the result has no function type, and no pointers or references behind typedefs. Not all methods of a C++ program are like that, see `C106_qualifier_false` and `C106_function_false`. -/
theorem C106_overrides_partial (i : Nat) : ∃ f : Override → OverrideDecl,
    callbackText E i = commentFor E (E.cls i).qname (E.cls i).incl (E.cls i).line ++
      structText (callbackName E i) (classQualifiedName E (E.cls i)) (E.cls i).name ((overrides E i).map f) ∧
    ∀ o ∈ overrides E i, o.method ∈ (E.cls o.cls).methods ∧ o.method.isVirtual = true ∧
      (∃ ts : List Ty, (f o).types = ts.map (stdTy E) ∧
        ∀ quals : Func → Quals, OverridesMethod quals o.method (f o).name ts (f o).isConst ↔ quals o.method = .plain) ∧
      (∀ p ∈ o.method.params, (∀ u, Mentions p.ty.canon u → ∀ r ps, u.head ≠ .fn r ps) → BeforeName p.ty.canon) ∧
      (Unhidden o.method.ret → (∀ u, Mentions o.method.ret u → ∀ r ps, u.head ≠ .fn r ps) → BeforeName o.method.ret.canon) := by
  refine ⟨_, callbackText_eq E i, fun o ho => ?_⟩
  have hs := C51_source E i o ho
  have hb : functionBindable E o.method = true := by
    have h := (overrides_source E ho).2.1
    simp only [overridable, Bool.and_eq_true] at h
    exact h.1.1.1.1.1.2
  refine ⟨hs.1, hs.2.1, ⟨o.method.params.map (·.ty), by simp [overrideDecl], fun quals => ⟨fun h => h.quals, fun h => ⟨rfl, by simp, rfl, h⟩⟩⟩, ?_, ?_⟩
  · intro p hp hf
    exact beforeName_of_canon p.ty fun u hu => ⟨((C47_functions_partial E _ hb).1 p hp u hu).noArray, hf u hu⟩
  · exact fun hu hf => C104_result_partial E _ hb hu hf

/-- C106 is false for virtual functions with `&`, like `struct A { virtual int f(int x) &; };`: the structure declares
`int f(int a0) override`, which overrides nothing, so the generated code does not compile. -/
theorem C106_qualifier_false : ∃ (E : Env) (F : Func), (E.cls 0).methods = [F] ∧ trampoline E 0 = true ∧ overrides E 0 = [⟨0, F, none⟩] ∧
    c!"struct PyCallBack_A : public A {\n\tusing A::A;\n\n\tint f(int a0) override {" <+: (callbackText E 0).dropWhile (· ≠ 's') ∧
    ¬ OverridesMethod (fun _ => ⟨false, .lvalue⟩) F c!"f" [.basic 0] false :=
  ⟨Ex.twoClasses [Ex.virtualInt], Ex.virtualInt, by rfl, by decide +kernel, by rfl, by decide +kernel, fun h => absurd h.quals (by decide)⟩

/-- A program with class `A` that has the method `virtual int f(int (&x)(int))`. -/
def Ex.takesFunction : Func := virtualMethod 0 c!"A" c!"f" (.basic 0) [⟨c!"x", .lref (.fn (.basic 0) [.basic 0]), false⟩] false false false .pub

/-- C106 is false for virtual functions that take references to functions: `int (&)(int) a0` is no C++ declaration. -/
theorem C106_function_false : ∃ (E : Env) (F : Func), (E.cls 0).methods = [F] ∧ trampoline E 0 = true ∧ overrides E 0 = [⟨0, F, none⟩] ∧
    c!"struct PyCallBack_A : public A {\n\tusing A::A;\n\n\tint f(int (&)(int) a0) override {" <+: (callbackText E 0).dropWhile (· ≠ 's') ∧
    ∃ p ∈ F.params, ¬ BeforeName p.ty.canon := by
  refine ⟨{ Ex.twoClasses [Ex.takesFunction] with tyName := declaratorTyName }, Ex.takesFunction, by rfl, by decide +kernel, by rfl,
    by decide +kernel, ⟨_, List.mem_cons_self, fun h => ?_⟩⟩
  change BeforeName (Ty.lref (.fn (.basic 0) [.basic 0])) at h
  cases h with
  | lref h => cases h

/-- A case of `C106_overrides_partial`: `virtual int A::f(B x)`. -/
example : (overrides (Ex.twoClasses [Ex.virtualObject]) 0).map (·.method) = [Ex.virtualObject] ∧
    OverridesMethod (fun _ => .plain) Ex.virtualObject c!"f" [.record 1] false ∧
    (∀ p ∈ Ex.virtualObject.params, BeforeName p.ty.canon) := by
  refine ⟨by rfl, ⟨rfl, rfl, rfl, rfl⟩, fun p hp => ?_⟩
  simp only [Ex.virtualObject, virtualMethod, List.mem_cons, List.not_mem_nil, or_false] at hp
  subst hp
  exact .record

end Binder
