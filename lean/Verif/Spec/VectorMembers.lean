import Verif.Model.VectorMembers

/-!
# Independent specification of vectors in Python

What `std::vector` does ([vector.capacity], [vector.modifiers] of the C++ standard), and what a Python programmer who reads the docstrings
expects.
-/

namespace Binder.Spec

/-- A vector: its elements, and how many it can hold before it allocates. -/
structure Vec (α : Type) where
  elems : List α
  cap : Nat

/-- All the vectors that Python objects hold. -/
abbrev Vecs (α : Type) := Nat → Vec α

/-- What a call gives back. -/
inductive Answer where
  | none | bool (b : Bool) | size (n : Nat) | lengthError | typeError
  deriving DecidableEq, Repr

/-- All vectors but number `i` are the same. -/
def Others {α : Type} (i : Nat) (h h' : Vecs α) : Prop := ∀ j, j ≠ i → h' j = h j

/-- The C++ standard on the member functions of the vector `i`, in an implementation in which vectors have at most `max` elements. How much
`reserve` allocates, and whether `shrink_to_fit` frees anything, is left to the implementation. -/
inductive VecFnCall {α : Type} (max i : Nat) : VectorFn → List VectorArg → Vecs α → Vecs α → Answer → Prop
  | empty (h : Vecs α) : VecFnCall max i .empty [] h h (.bool (h i).elems.isEmpty)
  | maxSize (h : Vecs α) : VecFnCall max i .maxSize [] h h (.size max)
  | reserve (h h' : Vecs α) (n : Nat) : n ≤ max → Others i h h' → (h' i).elems = (h i).elems → n ≤ (h' i).cap → (h i).cap ≤ (h' i).cap →
      VecFnCall max i .reserve [.size n] h h' .none
  | reserveError (h : Vecs α) (n : Nat) : max < n → VecFnCall max i .reserve [.size n] h h .lengthError
  | capacity (h : Vecs α) : VecFnCall max i .capacity [] h h (.size (h i).cap)
  | shrinkToFit (h h' : Vecs α) : Others i h h' → (h' i).elems = (h i).elems → (h' i).cap ≤ (h i).cap → (h i).elems.length ≤ (h' i).cap →
      VecFnCall max i .shrinkToFit [] h h' .none
  | clear (h h' : Vecs α) : Others i h h' → (h' i).elems = [] → (h' i).cap = (h i).cap → VecFnCall max i .clear [] h h' .none
  | swap (h h' : Vecs α) (j : Nat) : (∀ k, h' k = if k = i then h j else if k = j then h i else h k) → VecFnCall max i .swap [.vector j] h h' .none

/-- A call in Python: the object, the name of the method and the arguments. -/
structure VecCall where
  self : Nat
  name : Str
  args : List VectorArg

/-- What happens in a call: pybind11 calls the C++ function that the class has under the name, or raises `TypeError`. -/
def VecStep {α : Type} (max : Nat) (c : VecCall) (h h' : Vecs α) (a : Answer) : Prop :=
  match vectorCallee c.name c.args with
  | some f => VecFnCall max c.self f c.args h h' a
  | none => h' = h ∧ a = .typeError

/-- A history of calls, with the answers. -/
inductive VecHistory {α : Type} (max : Nat) : List (VecCall × Answer) → Vecs α → Vecs α → Prop
  | nil (h : Vecs α) : VecHistory max [] h h
  | cons {c : VecCall} {a : Answer} {h h' h'' : Vecs α} {l : List (VecCall × Answer)} : VecStep max c h h' a → VecHistory max l h' h'' →
      VecHistory max ((c, a) :: l) h h''

/-- The elements a Python programmer expects after a call: `v.clear()` leaves none, `v.swap(w)` exchanges the elements, nothing else changes
any. -/
def expectedElems {α : Type} (c : VecCall) (h : Nat → List α) : Nat → List α :=
  if c.name = "clear".toList ∧ c.args = [] then fun k => if k = c.self then [] else h k
  else match c.args with
    | [.vector j] => if c.name = "swap".toList then fun k => if k = c.self then h j else if k = j then h c.self else h k else h
    | _ => h

/-- The answers a Python programmer expects, where the vectors have these elements. -/
structure ExpectedAnswer {α : Type} (max : Nat) (c : VecCall) (h : Nat → List α) (a : Answer) : Prop where
  empty : c.name = "empty".toList → c.args = [] → a = .bool (h c.self).isEmpty
  largest : c.name = "max_size".toList → c.args = [] → a = .size max
  capacity : c.name = "capacity".toList → c.args = [] → ∃ n, a = .size n ∧ (h c.self).length ≤ n
  reserve : ∀ n, c.name = "reserve".toList → c.args = [.size n] → a = if n ≤ max then .none else .lengthError
  quiet : c.name ∈ ["shrink_to_fit".toList, "clear".toList] → c.args = [] → a = .none
  swap : ∀ j, c.name = "swap".toList → c.args = [.vector j] → a = .none

end Binder.Spec
