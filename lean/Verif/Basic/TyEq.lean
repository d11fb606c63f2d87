import Verif.Model.Class

/-! Decidable equality of types and functions, used by the concrete examples. -/

namespace Binder.Cxx

mutual
/-- Structural comparison of types. -/
def Ty.same : Ty → Ty → Bool
  | .basic a, .basic b => a == b
  | .dep a, .dep b => a == b
  | .ptr a, .ptr b => a.same b
  | .lref a, .lref b => a.same b
  | .rref a, .rref b => a.same b
  | .arr a, .arr b => a.same b
  | .fn r ps, .fn r' ps' => r.same r' && Ty.sameList ps ps'
  | .record a, .record b => a == b
  | .enum a, .enum b => a == b
  | .const a, .const b => a.same b
  | .sugar k a, .sugar l b => k == l && a.same b
  | _, _ => false
/-- `same` on lists. -/
def Ty.sameList : List Ty → List Ty → Bool
  | [], [] => true
  | a :: as, b :: bs => a.same b && Ty.sameList as bs
  | _, _ => false
end

mutual
theorem Ty.same_self : ∀ a : Ty, a.same a = true
  | .basic _ | .dep _ | .record _ | .enum _ => by simp [Ty.same]
  | .ptr a | .lref a | .rref a | .arr a | .const a | .sugar _ a => by simp [Ty.same, Ty.same_self a]
  | .fn r ps => by simp [Ty.same, Ty.same_self r, Ty.sameList_self ps]
theorem Ty.sameList_self : ∀ as : List Ty, Ty.sameList as as = true
  | [] => by simp [Ty.sameList]
  | a :: as => by simp [Ty.sameList, Ty.same_self a, Ty.sameList_self as]
end

mutual
theorem Ty.eq_of_same : ∀ a b : Ty, a.same b = true → a = b := by
  intro a b h
  cases a <;> cases b <;> simp only [Ty.same, Bool.and_eq_true, beq_iff_eq, Bool.false_eq_true] at h
  · rw [h]
  · rw [h]
  · rw [Ty.eq_of_same _ _ h]
  · rw [Ty.eq_of_same _ _ h]
  · rw [Ty.eq_of_same _ _ h]
  · rw [Ty.eq_of_same _ _ h]
  · rw [Ty.eq_of_same _ _ h.1, Ty.eq_of_sameList _ _ h.2]
  · rw [h]
  · rw [h]
  · rw [Ty.eq_of_same _ _ h]
  · rw [h.1, Ty.eq_of_same _ _ h.2]
theorem Ty.eq_of_sameList : ∀ as bs : List Ty, Ty.sameList as bs = true → as = bs := by
  intro as bs h
  cases as <;> cases bs <;> simp only [Ty.sameList, Bool.and_eq_true, Bool.false_eq_true] at h
  · rfl
  · rw [Ty.eq_of_same _ _ h.1, Ty.eq_of_sameList _ _ h.2]
end

instance : DecidableEq Ty := fun a b =>
  if h : a.same b = true then isTrue (Ty.eq_of_same a b h) else isFalse fun e => h (e ▸ Ty.same_self a)

deriving instance DecidableEq for ArgKind
deriving instance DecidableEq for TArg
deriving instance DecidableEq for Param
deriving instance DecidableEq for Method
deriving instance DecidableEq for Func
deriving instance DecidableEq for Field

end Binder.Cxx

namespace Binder

deriving instance DecidableEq for Override
deriving instance DecidableEq for Item

end Binder
