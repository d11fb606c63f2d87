import Verif.Basic.Str

/-!
# Independent specifications of the string helpers

Nothing in this file refers to the model of the program.
-/

namespace Binder.Spec

/-- `Substitutes p q s r`: `r` is `s` with every occurrence of `p`, taken from left to right without overlap, replaced by `q`;
inserted text is not searched again. -/
inductive Substitutes (p q : Str) : Str → Str → Prop
  /-- No occurrence left. -/
  | done (s : Str) (h : ¬ p <:+: s) : Substitutes p q s s
  /-- The leftmost occurrence is right after `x`. -/
  | hit (x rest out : Str) (first : ∀ j, j < x.length → ¬ p <+: (x ++ p ++ rest).drop j)
      (tail : Substitutes p q rest out) : Substitutes p q (x ++ p ++ rest) (x ++ q ++ out)

/-- Lines, each ended by the separator. -/
def terminated (c : Char) : List Str → Str
  | [] => []
  | l :: ls => l ++ c :: terminated c ls

/-- `ls` are the lines of `b` for the line terminator `c`: no line contains `c`, and writing them all out with terminators
gives `b`, completed by one terminator if `b` does not end with one. -/
def IsLines (c : Char) (b : Str) (ls : List Str) : Prop :=
  (∀ l ∈ ls, c ∉ l) ∧ terminated c ls = if b = [] ∨ b.getLast? = some c then b else b ++ [c]

/-- Space or tab. -/
def Blank (c : Char) : Prop := c = ' ' ∨ c = '\t'

/-- `t` is `s` without its leading and trailing blanks. -/
def IsTrimmed (s t : Str) : Prop :=
  (∃ pre post, s = pre ++ t ++ post ∧ (∀ c ∈ pre, Blank c) ∧ (∀ c ∈ post, Blank c)) ∧
  (∀ c, t.head? = some c → ¬ Blank c) ∧ (∀ c, t.getLast? = some c → ¬ Blank c)

/-- Characters of C++ identifiers. -/
def IdentChar (c : Char) : Bool :=
  (('a' ≤ c) && (c ≤ 'z')) || (('A' ≤ c) && (c ≤ 'Z')) || (('0' ≤ c) && (c ≤ '9')) || c == '_'

/-- Split a string into maximal runs of identifier characters and maximal runs of other characters. -/
def tokens : Str → List Str
  | [] => []
  | c :: cs => match tokens cs with
    | (d :: w) :: ts => if IdentChar c = IdentChar d then (c :: d :: w) :: ts else [c] :: (d :: w) :: ts
    | ts => [c] :: ts

/-- Replace the identifier `old` by `new` wherever it is a whole token. -/
def replaceIdent (old new s : Str) : Str := (tokens s).flatMap fun t => if t = old then new else t

/-- Reading the body of a C++ string literal that uses only the escapes `\\`, `\"` and `\n`. A raw quote, a raw newline, a dangling
backslash or another escape is an error. -/
def readLiteral : Str → Option Str
  | [] => some []
  | '\\' :: '\\' :: cs => (readLiteral cs).map ('\\' :: ·)
  | '\\' :: '"' :: cs => (readLiteral cs).map ('"' :: ·)
  | '\\' :: 'n' :: cs => (readLiteral cs).map ('\n' :: ·)
  | '\\' :: _ => none
  | '"' :: _ => none
  | '\n' :: _ => none
  | c :: cs => (readLiteral cs).map (c :: ·)

/-- A C++ (and ASCII Python) identifier: non-empty, identifier characters only, not starting with a digit. -/
def IsIdentifier (s : Str) : Prop := s ≠ [] ∧ (∀ c ∈ s, IdentChar c = true) ∧ ∀ c, s.head? = some c → ¬ (('0' ≤ c) && (c ≤ '9')) = true

end Binder.Spec
