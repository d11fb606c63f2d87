import Verif.Model.Comment

/-!
# Specification: the text of documentation comments
-/

namespace Binder.Spec

mutual
/-- The pieces of text of a comment with their lines, in order. -/
def pieces : Comment → List (Nat × Str)
  | .text l s => [(l, s)]
  | .node _ _ _ cs => piecesOf cs

def piecesOf : List Comment → List (Nat × Str)
  | [] => []
  | c :: cs => pieces c ++ piecesOf cs
end

mutual
/-- The parts of a comment are in the order of their lines: a part begins where its parts begin or earlier, and after all parts before it. -/
inductive InOrder : Nat → Comment → Nat → Prop where
  | text {lo l hi s} : lo ≤ l → l ≤ hi → InOrder lo (.text l s) hi
  | node {lo l hi p w cs} : lo ≤ l → InOrderList l cs hi → InOrder lo (.node l p w cs) hi

inductive InOrderList : Nat → List Comment → Nat → Prop where
  | nil {lo hi} : lo ≤ hi → InOrderList lo [] hi
  | cons {lo mid hi c cs} : InOrder lo c mid → InOrderList mid cs hi → InOrderList lo (c :: cs) hi
end

/-- Nothing but line ends. -/
def Newlines (s : Str) : Prop := ∀ c ∈ s, c = '\n'

/-- `text` consists of the pieces, in order and complete, with line ends before, between and after them; pieces of different lines are
separated. `after` is the line of the piece before. -/
inductive Consists : Option Nat → List (Nat × Str) → Str → Prop where
  | nil {after s} : Newlines s → Consists after [] s
  | cons {after s l t ps rest} : Newlines s → (∀ k, after = some k → k ≠ l → s ≠ []) → Consists (some l) ps rest →
      Consists after ((l, t) :: ps) (s ++ t ++ rest)

end Binder.Spec
