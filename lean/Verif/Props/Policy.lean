import Verif.Props.Function
import Verif.Props.Class

/-!
# C43: the policies for rvalue references are never used
-/

namespace Binder

open Cxx Spec

variable (E : Env)

theorem tyBindableWith_head {ok : Nat → Bool} : ∀ {t : Ty}, tyBindableWith E ok t = true → t.isRRef = false
  | .const t, h => by
    have := tyBindableWith_head (t := t) (by simpa [tyBindableWith] using h)
    simpa [Ty.isRRef, Ty.head] using this
  | .ptr _, _ => rfl
  | .lref _, _ => rfl
  | .rref p, h => by simp [tyBindableWith, tyHeadOk, Ty.isRRef, Ty.head] at h
  | .sugar _ t, h => by
    simp only [tyBindableWith, tyHeadOk, Bool.and_eq_true, Bool.not_eq_true'] at h
    exact h.1.1.1.1.2
  | .arr _, _ => rfl
  | .fn _ _, _ => rfl
  | .basic _, _ => rfl
  | .record _, _ => rfl
  | .enum _, _ => rfl
  | .dep _, _ => rfl

theorem returnKind_rref : ∀ {t : Ty}, t.isRRef = false → returnKind t ≠ some .rvalueReference
  | .const t, h => by
    have := returnKind_rref (t := t) (by simpa [Ty.isRRef, Ty.head] using h)
    simpa [returnKind] using this
  | .sugar _ t, h => by
    have := returnKind_rref (t := t) (by simpa [Ty.isRRef, Ty.head] using h)
    simpa [returnKind] using this
  | .rref p, h => by simp [Ty.isRRef, Ty.head] at h
  | .ptr _, _ => by simp [returnKind]
  | .lref _, _ => by simp [returnKind]
  | .arr _, _ => by simp [returnKind]
  | .fn _ _, _ => by simp [returnKind]
  | .basic _, _ => by simp [returnKind]
  | .record _, _ => by simp [returnKind]
  | .enum _, _ => by simp [returnKind]
  | .dep _, _ => by simp [returnKind]

/-- The part of C43 about rvalue references is empty: a function that returns one is never bound, so the settings
`default_static_rvalue_reference_return_value_policy` and `default_member_rvalue_reference_return_value_policy` decide about no
function that is bound. -/
theorem C43_rvalue_false (F : Func) (h : functionBindable E F = true) :
    returnKind F.ret ≠ some .rvalueReference ∧
    ∀ (c : Config) (isMember : Bool), c.memberPointerPolicy = E.cfg.memberPointerPolicy → c.staticPointerPolicy = E.cfg.staticPointerPolicy →
      c.memberLvaluePolicy = E.cfg.memberLvaluePolicy → c.staticLvaluePolicy = E.cfg.staticLvaluePolicy →
      policyFor c isMember (returnKind F.ret) = policyFor E.cfg isMember (returnKind F.ret) := by
  have hr : returnKind F.ret ≠ some .rvalueReference := by
    simp only [functionBindable, Bool.and_eq_true] at h
    exact returnKind_rref (tyBindableWith_head E h.1.1.2)
  refine ⟨hr, ?_⟩
  intro c isMember h1 h2 h3 h4
  cases e : returnKind F.ret with
  | none => rfl
  | some k =>
    cases k with
    | pointer => simp [policyFor, h1, h2]
    | lvalueReference => simp [policyFor, h3, h4]
    | rvalueReference => exact absurd e hr

/-- `A &&f()` is not bound, `A &f()` is. -/
example : functionBindable exampleEnv (exampleMethod c!"f" false (.rref (.record 0)) []) = false ∧
    functionBindable exampleEnv (exampleMethod c!"f" false (.lref (.record 0)) []) = true := by decide +kernel

end Binder
