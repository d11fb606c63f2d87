/-! Two lists whose elements are related one by one. -/

namespace Binder

/-- The elements at the same places are related, and the lists have the same length. -/
inductive All2 {α β : Type} (R : α → β → Prop) : List α → List β → Prop where
  | nil : All2 R [] []
  | cons {a b as bs} : R a b → All2 R as bs → All2 R (a :: as) (b :: bs)

variable {α β : Type} {R : α → β → Prop}

theorem All2.append {as bs as' bs'} (h : All2 R as bs) (h' : All2 R as' bs') : All2 R (as ++ as') (bs ++ bs') := by
  induction h with
  | nil => exact h'
  | cons h _ ih => exact .cons h ih

theorem All2.length {as bs} (h : All2 R as bs) : as.length = bs.length := by
  induction h with
  | nil => rfl
  | cons _ _ ih => simp [ih]

theorem All2.get {as : List α} {bs : List β} (h : All2 R as bs) (i : Nat) :
    (as[i]? = none ∧ bs[i]? = none) ∨ ∃ a b, as[i]? = some a ∧ bs[i]? = some b ∧ R a b := by
  induction h generalizing i with
  | nil => exact .inl ⟨rfl, rfl⟩
  | cons h _ ih =>
    cases i with
    | zero => exact .inr ⟨_, _, rfl, rfl, h⟩
    | succ i => simpa using ih i

theorem All2.drop {as bs} (h : All2 R as bs) (n : Nat) : All2 R (as.drop n) (bs.drop n) := by
  induction h generalizing n with
  | nil => simpa using All2.nil
  | cons h hs ih =>
    cases n with
    | zero => exact .cons h hs
    | succ n => exact ih n

theorem All2.take {as bs} (h : All2 R as bs) (n : Nat) : All2 R (as.take n) (bs.take n) := by
  induction h generalizing n with
  | nil => simpa using All2.nil
  | cons h hs ih =>
    cases n with
    | zero => exact .nil
    | succ n => exact .cons h (ih n)

theorem All2.of_map {γ : Type} {f : γ → α} {g : γ → β} {l : List γ} (h : ∀ x ∈ l, R (f x) (g x)) : All2 R (l.map f) (l.map g) := by
  induction l with
  | nil => exact .nil
  | cons x l ih => exact .cons (h x (by simp)) (ih fun y hy => h y (by simp [hy]))

end Binder
