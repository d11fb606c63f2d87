import Verif.Model.Util

/-!
# Model: the text of documentation comments
-/

namespace Binder

/-- A `clang::comments::Comment`, as far as `get_text` (util.cpp:303-328) looks at it. `line` is the line where it begins. `text` is a
`TextComment`. All others are `node`s: `paragraph` says that it is a `ParagraphComment`; `written` is what the node itself says in the source,
for example the name of a command and its argument, or a line of a verbatim block, which `get_text` does not look at. -/
inductive Comment where
  | text (line : Nat) (text : Str)
  | node (line : Nat) (paragraph : Bool) (written : Str) (children : List Comment)

/-- `SM.getSpellingLineNumber(C->getBeginLoc())`. -/
def Comment.line : Comment → Nat
  | .text l _ => l
  | .node l _ _ _ => l

mutual
/-- `get_text`, util.cpp:303-328; `previous` is the line of the third argument. -/
def getText : Comment → Nat → Str
  | .text _ s, _ => s
  | .node _ paragraph _ children, previous => (if paragraph then c!"\n" else []) ++ getTextLoop children previous

/-- The loop of `get_text`, util.cpp:311-325. -/
def getTextLoop : List Comment → Nat → Str
  | [], _ => []
  | c :: cs, previous =>
    let changed := previous ≠ c.line
    let previous := if changed then c.line else previous
    (if changed then c!"\n" else []) ++ getText c previous ++ getTextLoop cs previous
end

/-- The text of a comment: the argument `SourceLocation()` of util.cpp:344 is invalid, its line is 0. No comment gives no text (line 335). -/
def commentText : Option Comment → Str
  | none => []
  | some c => getText c 0

end Binder
