import Verif.Lemmas.Comments
import Verif.Lemmas.LexRun
import Verif.Lemmas.RunSim
import Verif.Lemmas.Unbroken

/-! The options for comments change only comments. -/

namespace Binder

open Spec Cxx

/-! ## Lines of code -/

theorem textLines_ne (s : Str) : textLines s ≠ [] := by
  cases s with
  | nil => simp [textLines]
  | cons c s =>
    rw [textLines]
    split
    · simp
    · split <;> simp

theorem textLines_append (a b : Str) : textLines (a ++ '\n' :: b) = textLines a ++ textLines b := by
  induction a with
  | nil => simp [textLines]
  | cons c a ih =>
    rw [List.cons_append, textLines, textLines, ih]
    split
    · simp
    · have := textLines_ne a
      cases h : textLines a with
      | nil => exact absurd h this
      | cons l ls => simp

theorem textLines_one {l : Str} (h : '\n' ∉ l) : textLines l = [l] := by
  induction l with
  | nil => rfl
  | cons c l ih =>
    rw [List.mem_cons, not_or] at h
    rw [textLines, if_neg (Ne.symm h.1), ih h.2]

theorem codeLines_append (a b : Str) : codeLines (a ++ '\n' :: b) = codeLines a ++ codeLines b := by
  unfold codeLines; rw [textLines_append, List.map_append, List.filter_append]

theorem codeLines_nil : codeLines [] = [] := rfl

/-- A text that ends with a line. -/
def Whole (a : Str) : Prop := ∀ r, codeLines (a ++ r) = codeLines a ++ codeLines r

theorem Whole.nil : Whole [] := fun _ => rfl

theorem Whole.line (a : Str) : Whole (a ++ ['\n']) := by
  intro r
  rw [List.append_assoc, List.cons_append, List.nil_append, codeLines_append, codeLines_append, codeLines_nil, List.append_nil]

theorem Whole.append {a b : Str} (ha : Whole a) (hb : Whole b) : Whole (a ++ b) := by
  intro r
  rw [List.append_assoc, ha, hb, ha b, List.append_assoc]

/-- Two texts that end with a line and have the same code. -/
structure Same (a b : Str) : Prop where
  left : Whole a
  right : Whole b
  code : codeLines a = codeLines b

theorem Same.refl {a : Str} (h : Whole a) : Same a a := ⟨h, h, rfl⟩
theorem Same.line (a : Str) : Same (a ++ ['\n']) (a ++ ['\n']) := .refl (.line a)
theorem Same.nil : Same [] [] := .refl .nil

theorem Same.append {a b a' b' : Str} (h : Same a b) (h' : Same a' b') : Same (a ++ a') (b ++ b') :=
  ⟨h.left.append h'.left, h.right.append h'.right, by rw [h.left, h.right, h.code, h'.code]⟩

theorem Same.flatMap {α : Type} {l : List α} {f g : α → Str} (h : ∀ x ∈ l, Same (f x) (g x)) : Same (l.flatMap f) (l.flatMap g) := by
  induction l with
  | nil => exact .nil
  | cons x l ih =>
    rw [List.flatMap_cons, List.flatMap_cons]
    exact (h x (by simp)).append (ih fun y hy => h y (by simp [hy]))

theorem codeLines_line {l : Str} (h : '\n' ∉ l) : codeLines (l ++ ['\n']) = if lineCode l = [] then [] else [lineCode l] := by
  have := codeLines_append l []
  rw [this, codeLines_nil, List.append_nil, codeLines, textLines_one h]
  by_cases e : lineCode l = [] <;> simp [e]

theorem Same.of_line {a b : Str} (ha : '\n' ∉ a) (hb : '\n' ∉ b) (h : lineCode a = lineCode b) : Same (a ++ ['\n']) (b ++ ['\n']) :=
  ⟨.line a, .line b, by rw [codeLines_line ha, codeLines_line hb, h]⟩

/-- A line with nothing but a comment. -/
theorem Same.of_comment {a : Str} (ha : '\n' ∉ a) (h : lineCode a = []) : Same (a ++ ['\n']) [] :=
  ⟨.line a, .nil, by rw [codeLines_line ha, if_pos h]; rfl⟩

theorem Same.symm {a b : Str} (h : Same a b) : Same b a := ⟨h.right, h.left, h.code.symm⟩
theorem Same.trans {a b c : Str} (h : Same a b) (h' : Same b c) : Same a c := ⟨h.left, h'.right, h.code.trans h'.code⟩

/-! ## Indentation -/

theorem codeLines_terminated {ls : List Str} (h : ∀ l ∈ ls, '\n' ∉ l) : codeLines (terminated '\n' ls) = (ls.map lineCode).filter (· ≠ []) := by
  induction ls with
  | nil => rfl
  | cons l ls ih =>
    rw [terminated, codeLines_append, ih fun x hx => h x (by simp [hx]), codeLines, textLines_one (h l (by simp)), ← List.filter_append]
    rfl

theorem lineCode_tab (l : Str) : lineCode ('\t' :: l) = if lineCode l = [] then [] else '\t' :: lineCode l := by
  unfold lineCode
  rw [beforeComment, if_neg (by simp), if_neg (by decide), trimEnd]
  simp

theorem codeLines_split (s : Str) : codeLines s = ((split s c!"\n").map lineCode).filter (· ≠ []) := by
  obtain ⟨h1, h2⟩ := isLines_split '\n' s
  rw [← codeLines_terminated h1, h2]
  split
  · rfl
  · rw [codeLines_append, codeLines_nil, List.append_nil]

theorem codeLines_indent (s : Str) : codeLines (indent s c!"\t") = (codeLines s).map ('\t' :: ·) := by
  rw [indent_eq_terminated, codeLines_terminated, codeLines_split s]
  · induction split s c!"\n" with
    | nil => rfl
    | cons l ls ih =>
      simp only [List.map_cons, List.filter_cons]
      have h : lineCode (if l = [] then [] else c!"\t" ++ l) = if lineCode l = [] then [] else '\t' :: lineCode l := by
        split
        · rename_i e; subst e; rfl
        · exact lineCode_tab l
      rw [h, ih]
      by_cases e : lineCode l = [] <;> simp [e]
  · intro x hx
    obtain ⟨l, hl, rfl⟩ := List.mem_map.1 hx
    have := (isLines_split '\n' s).1 l hl
    split
    · simp
    · simp [this]

theorem whole_terminated (ls : List Str) : Whole (terminated '\n' ls) := by
  induction ls with
  | nil => exact .nil
  | cons l ls ih =>
    rw [terminated, show l ++ '\n' :: terminated '\n' ls = (l ++ ['\n']) ++ terminated '\n' ls by simp]
    exact (Whole.line l).append ih

theorem Same.indent {a b : Str} (h : codeLines a = codeLines b) : Same (indent a c!"\t") (indent b c!"\t") :=
  ⟨indent_eq_terminated a _ ▸ whole_terminated _, indent_eq_terminated b _ ▸ whole_terminated _, by rw [codeLines_indent, codeLines_indent, h]⟩

/-! ## Comments -/

section
variable {E : Env} (k : CommentOptions)

theorem fileLine_line (E : Env) {incl line : Str} (hi : Flat incl) (hl : Flat line) : ∃ x, fileLine E incl line = x ++ ['\n'] ∧ '\n' ∉ x := by
  refine ⟨_, rfl, ?_⟩
  have h1 : '\n' ∉ (if incl.length ≠ 0 then Str.substr incl 1 (incl.length - 2) else []) := by
    split
    · exact fun h => hi (List.mem_of_mem_drop (List.mem_of_mem_take h))
    · simp
  have h2 : '\n' ∉ lineNumber E line := by
    unfold lineNumber
    split
    · simp
    · exact hl
  simp only [List.mem_append, not_or]
  exact ⟨⟨⟨by decide, h1⟩, by decide⟩, h2⟩

/-- A comment on a line of its own. -/
theorem same_tabComment (E : Env) {x incl line : Str} (hx : '\n' ∉ x) (hi : Flat incl) (hl : Flat line) :
    Same (c!"\t// " ++ x ++ fileLine E incl line) [] := by
  obtain ⟨y, e, hy⟩ := fileLine_line E hi hl
  rw [e, ← List.append_assoc]
  exact .of_comment (by simp [hx, hy]) (by simp [lineCode, beforeComment, trimEnd])

theorem same_commentFor (E : Env) (H : UnbrokenProgram E) {qname incl line : Str} (hq : Flat qname) (hi : Flat incl) (hl : Flat line) :
    Same (commentFor E qname incl line) [] := by
  obtain ⟨y, e, hy⟩ := fileLine_line E hi hl
  rw [commentFor, e, ← List.append_assoc]
  exact .of_comment (by simp [hq.stdName H, hy]) (by simp [lineCode, beforeComment, trimEnd])

theorem same_braceComment (E : Env) (H : UnbrokenProgram E) {qname incl line : Str} (hq : Flat qname) (hi : Flat incl) (hl : Flat line) :
    Same (c!"{ " ++ commentFor E qname incl line) c!"{\n" := by
  obtain ⟨y, e, hy⟩ := fileLine_line E hi hl
  rw [commentFor, e, ← List.append_assoc, ← List.append_assoc]
  exact .of_line (b := c!"{") (by simp [hq.stdName H, hy]) (by decide) (by simp [lineCode, beforeComment, trimEnd])

theorem same_signature (H : UnbrokenProgram E) {F : Func} (hF : UnbrokenFunc F) (b : Bool) : Same (signatureComment E F b) [] := by
  unfold signatureComment
  rw [show c!"\t// function-signature: " = c!"\t// " ++ c!"function-signature: " from rfl]
  simp only [List.append_assoc]
  rw [← List.append_assoc c!"function-signature: ", ← List.append_assoc _ c!"(", ← List.append_assoc _ (functionArguments E F),
    ← List.append_assoc _ c!")", ← List.append_assoc c!"\t// "]
  refine same_tabComment E ?_ hF.incl hF.line
  simp [flat_functionQualified H hF b, flat_arguments H F]

theorem cmt_unbroken (H : UnbrokenProgram E) : UnbrokenProgram (withComments E k) := ⟨H.types, H.simplify, H.records, H.enums⟩

theorem same_annotation (H : UnbrokenProgram E) {F : Func} (hF : UnbrokenFunc F) (b : Bool) :
    Same (if (withComments E k).opts.annotateFunctions then signatureComment (withComments E k) F b else [])
      (if E.opts.annotateFunctions then signatureComment E F b else []) := by
  have h1 := same_signature H hF b
  have h2 := same_signature (cmt_unbroken k H) hF b
  split <;> split
  · exact h2.trans h1.symm
  · exact h2
  · exact h1.symm
  · exact .nil

/-! ## Functions and enumerations -/

theorem same_bindFunction (H : UnbrokenProgram E) (module : Str) {F : Func} (hF : UnbrokenFunc F) (parent : Option Nat) (lam : Bool) :
    Same (bindFunctionText (withComments E k) module F parent lam) (bindFunctionText E module F parent lam) := by
  unfold bindFunctionText
  refine (same_annotation k H hF false).append (Same.flatMap fun n _ => ?_)
  exact Same.line _

theorem same_functionCode (H : UnbrokenProgram E) {F : Func} (hF : UnbrokenFunc F) : Same (functionCode (withComments E k) F) (functionCode E F) := by
  have hx : '\n' ∉ F.qname ++ c!"(" ++ functionArguments E F ++ c!")" := by simp [hF.qname, flat_arguments H F]
  unfold functionCode
  have h1 := same_tabComment (withComments E k) hx hF.incl hF.line
  have h2 := same_tabComment E hx hF.incl hF.line
  simp only [← List.append_assoc] at h1 h2 ⊢
  exact ((h1.trans h2.symm).append (same_bindFunction k H _ hF none false)).append (Same.line [])

theorem same_tabFor (E : Env) (H : UnbrokenProgram E) {qname incl line : Str} (hq : Flat qname) (hi : Flat incl) (hl : Flat line) :
    Same (c!"\t" ++ commentFor E qname incl line) [] := by
  have := same_tabComment E (hq.stdName H) hi hl
  exact this

theorem whole_literal {a b : Str} (x : Str) (e : b = x ++ ['\n']) : Whole (a ++ b) := by
  rw [e, ← List.append_assoc]; exact .line _

theorem Same.append_line {a b : Str} (h : Same a b) (x : Str) : Same ((a ++ x) ++ ['\n']) ((b ++ x) ++ ['\n']) := by
  rw [List.append_assoc, List.append_assoc]
  exact h.append (Same.line x)

theorem bindEnum_whole (E : Env) (module : Str) (e : EnumD) : Whole (bindEnumText E module e) := by
  unfold bindEnumText
  by_cases h : e.isScopedUsingClassTag = true
  · rw [if_pos h]; exact whole_literal c!";\n" rfl
  · rw [if_neg h]; exact whole_literal c!"\n\t\t.export_values();\n" rfl

theorem same_enumCode (H : UnbrokenProgram E) {e : EnumD} (he : UnbrokenEnum e) : Same (enumCode (withComments E k) e) (enumCode E e) := by
  unfold enumCode
  refine ((((same_tabFor (withComments E k) (cmt_unbroken k H) he.qname he.incl he.line).trans
    (same_tabFor E H he.qname he.incl he.line).symm)).append (.refl (bindEnum_whole E _ e))).append ?_
  exact Same.line c!";\n"

/-! ## Classes -/

theorem cmt_callbackName : callbackName (withComments E k) = callbackName E := rfl

theorem cmt_trampolineName (i : Nat) : trampolineName (withComments E k) i = trampolineName E i := by
  rw [trampolineName, trampolineName, cmt_trampoline]; rfl

theorem same_ctors (H : UnbrokenProgram E) (i : Nat) {t : Func} (ht : UnbrokenFunc t) : Same (ctorsText (withComments E k) i t) (ctorsText E i t) := by
  unfold ctorsText
  refine Same.flatMap fun n _ => ?_
  unfold ctorText
  rw [cmt_trampolineName, cmt_trampoline]
  exact (same_annotation k H ht true).append_line _

theorem same_defaultCtor (H : UnbrokenProgram E) (i : Nat) {t : Option Func} (ht : ∀ F, t = some F → UnbrokenFunc F) :
    Same (defaultCtorText (withComments E k) i t) (defaultCtorText E i t) := by
  unfold defaultCtorText
  dsimp only
  rw [cmt_trampolineName, cmt_trampoline]
  refine Same.append ?_ (.refl ?_)
  · cases t with
    | some F => exact same_annotation k H (ht F rfl) true
    | none =>
      have : Same (c!"\t// function-signature: " ++ classQualifiedName E (E.cls i) ++ c!"()\n") [] := by
        rw [show c!"()\n" = c!"()" ++ ['\n'] from rfl, ← List.append_assoc]
        exact .of_comment (by simp [flat_classQualified H i]) (by simp [lineCode, beforeComment, trimEnd])
      dsimp only
      split <;> split
      · exact this.trans this.symm
      · exact this
      · exact this.symm
      · exact .nil
  · split
    · exact whole_literal c!" ) );" rfl
    · split
      · exact whole_literal c!" ) );" rfl
      · exact whole_literal c!" ) );" rfl

theorem same_copyCtor (H : UnbrokenProgram E) (i : Nat) {t : Func} (ht : UnbrokenFunc t) :
    Same (copyCtorText (withComments E k) i t) (copyCtorText E i t) := by
  unfold copyCtorText
  dsimp only
  rw [cmt_trampolineName, cmt_trampoline]
  refine (same_annotation k H ht true).append (.refl ?_)
  split
  · split
    · exact whole_literal c!" &>());" rfl
    · refine Whole.append (whole_literal c!" ) );" rfl) ?_
      split
      · exact whole_literal c!" ) );" rfl
      · exact .nil
  · exact whole_literal c!" ) );" rfl

theorem same_item (H : UnbrokenProgram E) (i : Nat) {x : Item} (hx : UnbrokenItem x) : Same (itemText (withComments E k) i x) (itemText E i x) := by
  cases x with
  | implicitDefault => exact same_defaultCtor k H i (t := none) (fun F e => nomatch e)
  | defaultCtor t => exact same_defaultCtor k H i (fun F e => Option.some.inj e ▸ hx)
  | copyCtor t => exact same_copyCtor k H i hx
  | ctor t => exact same_ctors k H i hx
  | enum e => exact .refl ((Whole.line []).append (bindEnum_whole E _ _))
  | field o f => exact .refl (whole_literal c!";" rfl)
  | method f p l => exact same_bindFunction k H _ hx p l
  | repr F => exact .refl (whole_literal c!" s << o; return s.str(); } );" rfl)
  | addOn b => exact .refl (whole_literal c!"(cl);" rfl)

theorem same_callback (H : UnbrokenProgram E) (i : Nat) : Same (callbackText (withComments E k) i) (callbackText E i) := by
  unfold callbackText
  dsimp only
  rw [cmt_overrides]
  simp only [List.append_assoc]
  have hr := H.records i
  refine ((same_commentFor (withComments E k) (cmt_unbroken k H) hr.qname hr.incl hr.line).trans
    (same_commentFor E H hr.qname hr.incl hr.line).symm).append (.refl ?_)
  simp only [← List.append_assoc]
  exact whole_literal c!"};\n" rfl

theorem cmt_holderText (i : Nat) : holderText (withComments E k) i = holderText E i := by
  have h : ∀ n i, sharedFromThisF (withComments E k) n i = sharedFromThisF E n i := by
    intro n
    induction n with
    | zero => exact fun _ => rfl
    | succ n ih =>
      intro i
      rw [sharedFromThisF, sharedFromThisF, show sharedFromThisF (withComments E k) n = sharedFromThisF E n from funext ih]
      rfl
  have h : sharedFromThis (withComments E k) i = sharedFromThis E i := h _ _
  rw [holderText, holderText, h]
  rfl

theorem cmt_pythonClassName (C : Record) : pythonClassName (withComments E k) C = pythonClassName E C := rfl

theorem cmt_classStatement (i : Nat) : classStatement (withComments E k) i = classStatement E i := by
  unfold classStatement
  simp only [cmt_trampoline, cmt_boundBases, cmt_cls, cmt_stdName, cmt_classQualifiedName, cmt_cfg, cmt_callbackName, cmt_nsOf, cmt_holderText,
    cmt_pythonClassName]
  rfl

theorem same_classHead (H : UnbrokenProgram E) (i : Nat) : Same (classHead (withComments E k) i) (classHead E i) := by
  have hr := H.records i
  unfold classHead
  dsimp only
  rw [cmt_classStatement]
  refine (Same.append ((same_braceComment (withComments E k) (cmt_unbroken k H) hr.qname hr.incl hr.line).trans
    (same_braceComment E H hr.qname hr.incl hr.line).symm) (.refl ?_)).append (.refl ?_)
  · rw [cmt_cls]
    split
    · exact whole_literal (a := []) c!"\tauto & enclosing_class = cl;" rfl
    · exact .nil
  · rw [cmt_cls]
    split
    · unfold classStatement
      exact whole_literal c!");" rfl
    · exact .nil

theorem same_bindWith (H : UnbrokenProgram E) (i : Nat) (b : Str) : Same (bindWithText (withComments E k) i b) (bindWithText E i b) := by
  have hr := H.records i
  unfold bindWithText
  dsimp only
  simp only [List.append_assoc]
  rw [← List.append_assoc c!"\t" (commentFor _ _ _ _), ← List.append_assoc c!"\t" (commentFor _ _ _ _)]
  refine ((same_tabFor (withComments E k) (cmt_unbroken k H) hr.qname hr.incl hr.line).trans
    (same_tabFor E H hr.qname hr.incl hr.line).symm).append (.refl ?_)
  simp only [← List.append_assoc]
  exact whole_literal c!");\n" rfl

theorem same_classF (H : UnbrokenProgram E) : ∀ (n i : Nat), Same (bindClassTextF (withComments E k) n i).code (bindClassTextF E n i).code ∧
    Same (bindClassTextF (withComments E k) n i).pre (bindClassTextF E n i).pre := by
  intro n
  induction n with
  | zero => exact fun i => ⟨.nil, .nil⟩
  | succ n ih =>
    intro i
    rw [bindClassTextF, bindClassTextF]
    by_cases hb : builtinDecl E (E.cls i).qname = true
    · have hb' : builtinDecl (withComments E k) ((withComments E k).cls i).qname = true := hb
      rw [if_pos hb, if_pos hb']
      exact ⟨.nil, .nil⟩
    · have hb' : ¬ builtinDecl (withComments E k) ((withComments E k).cls i).qname = true := hb
      rw [if_neg hb, if_neg hb']
      simp only [cmt_cls, cmt_cfg, cmt_stdName]
      cases E.cfg.binders (stdName E (E.cls i).qname) with
      | some b => exact ⟨same_bindWith k H i b, .nil⟩
      | none =>
        simp only [cmt_classItems, cmt_nestedBound, cmt_trampoline, List.flatMap_map]
        refine ⟨Same.indent (Same.code ?_), ?_⟩
        · refine (((same_classHead k H i).append (Same.flatMap fun x hx => same_item k H i (unbroken_classItems H hx))).append ?_).append
            (Same.line c!"}")
          have hn : Same ((nestedBound E (E.cls i)).flatMap fun j => (bindClassTextF (withComments E k) n j).code ++ c!"\n")
              ((nestedBound E (E.cls i)).flatMap fun j => (bindClassTextF E n j).code ++ c!"\n") :=
            Same.flatMap fun j _ => (ih j).1.append (Same.line [])
          have hl : ∀ E' : Env, ((nestedBound E (E.cls i)).flatMap fun j => (bindClassTextF E' n j).code ++ c!"\n").isEmpty =
              (nestedBound E (E.cls i)).isEmpty := by
            intro E'
            cases nestedBound E (E.cls i) <;> simp
          rw [hl, hl]
          split
          · exact hn
          · exact (Same.line []).append hn
        · refine Same.append ?_ (Same.flatMap fun j _ => (ih j).2)
          split
          · exact same_callback k H i
          · exact .nil

theorem same_class (H : UnbrokenProgram E) (i : Nat) : Same (classOutput (withComments E k) i).code (classOutput E i).code ∧
    Same (classOutput (withComments E k) i).pre (classOutput E i).pre := same_classF k H _ i

theorem same_binding (H : UnbrokenProgram E) {v : Visit} (hv : ∀ F, v = .fn F → UnbrokenFunc F) :
    Same (bindingOf (withComments E k) v) (bindingOf E v) ∧ Same (prefixOf (withComments E k) v) (prefixOf E v) := by
  cases v with
  | fn F => exact ⟨same_functionCode k H (hv F rfl), .nil⟩
  | cls i => exact same_class k H i
  | enm i => exact ⟨same_enumCode k H (H.enums i), .nil⟩

end

end Binder
