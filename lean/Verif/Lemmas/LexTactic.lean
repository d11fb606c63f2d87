import Verif.Spec.Lexical
import Lean

/-!
# Reading of fixed text

`simp only [lexLit]` replaces `lex m o (c!"..." ++ r)` by what is left to read after the fixed text.
-/

namespace Binder

open Spec

theorem lex_append (m : LexMode) (o a b : Str) : lex m o (a ++ b) = (lex m o a).bind fun p => lex p.1 p.2 b := by
  induction a generalizing m o with
  | nil => rfl
  | cons c a ih =>
    simp only [List.cons_append, lex]
    cases lexStep m o c with
    | none => rfl
    | some p => exact ih p.1 p.2

theorem lex_then {m m' : LexMode} {o o' a : Str} (h : lex m o a = some (m', o')) (b : Str) : lex m o (a ++ b) = lex m' o' b := by
  rw [lex_append, h]; rfl

theorem lex_then_toList {m m' : LexMode} {o o' a : Str} (s : String) (e : s = String.ofList a) (h : lex m o a = some (m', o')) (b : Str) :
    lex m o (s.toList ++ b) = lex m' o' b := by
  rw [e, String.toList_ofList]
  exact lex_then h b

theorem lex_toList {m m' : LexMode} {o o' a : Str} (s : String) (e : s = String.ofList a) (h : lex m o a = some (m', o')) :
    lex m o s.toList = some (m', o') := by
  rw [e, String.toList_ofList]
  exact h

namespace LexTactic

open Lean Meta Simp

/-- The character of a character literal. -/
def char? (e : Expr) : Option Char :=
  match e with
  | .app (.const ``Char.ofNat _) n => (n.rawNatLit? <|> n.nat?).map Char.ofNat
  | _ => none

/-- Split `'a' :: 'b' :: o` into the characters and `o`. -/
def stack : Expr → List Char × Expr
  | .app (.app (.app (.const ``List.cons us) ty) c) r =>
    match char? c with
    | some ch => let (cs, t) := stack r; (ch :: cs, t)
    | none => ([], .app (.app (.app (.const ``List.cons us) ty) c) r)
  | e => ([], e)

/-- The characters of a literal. -/
def chars? (e : Expr) : Option (List Char) :=
  match stack e with
  | (cs, t) => if t.isAppOf ``List.nil then some cs else none

/-- The mode. -/
def mode? (e : Expr) : Option LexMode :=
  match e.constName? with
  | some ``LexMode.code => some .code
  | some ``LexMode.slash => some .slash
  | some ``LexMode.line => some .line
  | some ``LexMode.lineEscape => some .lineEscape
  | some ``LexMode.str => some .str
  | some ``LexMode.strEscape => some .strEscape
  | some ``LexMode.chr => some .chr
  | some ``LexMode.chrEscape => some .chrEscape
  | _ => none

def modeExpr : LexMode → Expr
  | .code => mkConst ``LexMode.code
  | .slash => mkConst ``LexMode.slash
  | .line => mkConst ``LexMode.line
  | .lineEscape => mkConst ``LexMode.lineEscape
  | .str => mkConst ``LexMode.str
  | .strEscape => mkConst ``LexMode.strEscape
  | .chr => mkConst ``LexMode.chr
  | .chrEscape => mkConst ``LexMode.chrEscape

def charExpr (c : Char) : Expr := mkApp (mkConst ``Char.ofNat) (mkRawNatLit c.toNat)

def mkStr (cs : List Char) (tail : Expr) : Expr :=
  cs.foldr (fun c r => mkApp3 (mkConst ``List.cons [.zero]) (mkConst ``Char) (charExpr c) r) tail

/-- The literal: its characters, and whether it is written `"...".toList`. -/
def literal? (e : Expr) : Option (List Char × Option Expr) :=
  match chars? e with
  | some cs => some (cs, none)
  | none => match e.getAppFnArgs with
    | (``String.toList, #[s]) => match s with
      | .lit (.strVal v) => some (v.toList, some s)
      | _ => none
    | _ => none

def run (e : Expr) : SimpM Lean.Meta.Simp.Step := do
  let (``Spec.lex, #[m, o, t]) := e.getAppFnArgs | return Lean.Meta.Simp.Step.continue
  let some md := mode? m | return Lean.Meta.Simp.Step.continue
  let (lit, rest) := match t.getAppFnArgs with
    | (``HAppend.hAppend, #[_, _, _, _, a, b]) => (a, some b)
    | _ => (t, none)
  let some (cs, viaString) := literal? lit | return Lean.Meta.Simp.Step.continue
  if cs.isEmpty && rest.isNone then return Lean.Meta.Simp.Step.continue
  let (st, tail) := stack o
  let some (md', st') := Spec.lex md st cs | return Lean.Meta.Simp.Step.continue
  let o' := mkStr st' tail
  let res ← mkAppM ``Option.some #[← mkAppM ``Prod.mk #[modeExpr md', o']]
  let clist := mkStr cs (mkApp (mkConst ``List.nil [.zero]) (mkConst ``Char))
  let h ← mkExpectedTypeHint (← mkEqRefl res) (← mkEq (mkApp3 (mkConst ``Spec.lex) m o clist) res)
  match rest, viaString with
  | some r, none =>
    return Lean.Meta.Simp.Step.visit { expr := mkApp3 (mkConst ``Spec.lex) (modeExpr md') o' r, proof? := some (← mkAppM ``Binder.lex_then #[h, r]) }
  | some r, some s =>
    let eq ← mkExpectedTypeHint (← mkEqRefl s) (← mkEq s (← mkAppM ``String.ofList #[clist]))
    return Lean.Meta.Simp.Step.visit { expr := mkApp3 (mkConst ``Spec.lex) (modeExpr md') o' r, proof? := some (← mkAppM ``Binder.lex_then_toList #[s, eq, h, r]) }
  | none, none => return Lean.Meta.Simp.Step.visit { expr := res, proof? := some h }
  | none, some s =>
    let eq ← mkExpectedTypeHint (← mkEqRefl s) (← mkEq s (← mkAppM ``String.ofList #[clist]))
    return Lean.Meta.Simp.Step.visit { expr := res, proof? := some (← mkAppM ``Binder.lex_toList #[s, eq, h]) }

end LexTactic

/-- Read fixed text. -/
simproc_decl lexLit (Spec.lex _ _ _) := LexTactic.run

example (o r : Str) : lex .code o (c!"f(\"a" ++ r) = lex .str (')' :: o) r := by simp only [lexLit]
example (o r : Str) : lex .code (')' :: o) ("a) // ".toList ++ r) = lex .line o r := by simp only [lexLit]
example (o : Str) : lex .line o c!"\n" = some (.code, o) := by simp only [lexLit]

end Binder
