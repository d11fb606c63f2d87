import Verif.Lemmas.LexNames

/-! Lemmas about reading text: bindings of functions and enumerations. -/

namespace Binder

open Spec Cxx

/-! ## Documentation -/

theorem lex_docEscape (c : Char) (o r : Str) : lex .str o (docEscape c ++ r) = lex .str o r := by
  unfold docEscape
  split
  · rfl
  · split
    · rfl
    · split
      · rfl
      · simp_all [lex, lexStep]

theorem lex_docString (t o r : Str) : lex .str o (docString t ++ r) = lex .str o r := by
  rw [docString_eq]
  generalize t.dropWhile (fun c => c == ' ' || c == '\n') = s
  induction s with
  | nil => rfl
  | cons c s ih => rw [List.flatMap_cons, List.append_assoc, lex_docEscape, ih]

section
variable {E : Env}

/-! ## Comments -/

theorem lex_fileLine {incl line : Str} (hi : OneLine incl) (hl : OneLine line) (o r : Str) :
    lex .line o (fileLine E incl line ++ r) = lex .code o r := by
  have h1 : OneLine (if incl.length ≠ 0 then Str.substr incl 1 (incl.length - 2) else []) := by
    split
    · exact hi.subset fun c hc => List.mem_of_mem_drop (List.mem_of_mem_take hc)
    · simp [OneLine]
  have h2 : OneLine (lineNumber E line) := by
    unfold lineNumber
    split
    · simp [OneLine]
    · exact hl
  unfold fileLine
  simp only [List.append_assoc, lexLit, h1.line, h2.line]

theorem neutral_comment (H : PlainProgram E) {qname incl line : Str} (hq : OneLine qname) (hi : OneLine incl) (hl : OneLine line) :
    Neutral (commentFor E qname incl line) := by
  intro o r
  unfold commentFor
  simp only [List.append_assoc, lexLit, (hq.stdName H).line, lex_fileLine hi hl]

theorem Spec.LexPlain.oneLine {s : Str} (h : LexPlain s) : OneLine s := oneLine_of_strSafe h.strSafe
theorem Spec.PlainName.oneLine {s : Str} (h : PlainName s) : OneLine s := oneLine_of_strSafe h.strSafe

/-! ## Functions -/

theorem plain_lambdaReturn (H : PlainProgram E) (F : Func) : LexPlain (lambdaReturnType E F) := by
  unfold lambdaReturnType
  have hm : ∀ p ∈ lambdaReturnMap, p.1.filter isBr = [] ∧ LexPlain p.2 ∧ p.2.filter isBr = [] := by decide
  generalize lambdaReturnMap = l at hm
  have hs := plain_stdTy H F.ret
  generalize stdTy E F.ret = s at hs
  induction l generalizing s with
  | nil => exact hs
  | cons p l ih =>
    rw [List.foldl_cons]
    refine ih (fun q hq => hm q (by simp [hq])) _ ?_
    split
    · rename_i hb
      obtain ⟨r, hr⟩ := (beginsWith_iff _ _).1 hb
      have hp := hm p (by simp)
      refine plain_congr hs ?_ ?_
      · intro c hc
        simp only [List.mem_append] at hc
        rcases hc with h | h
        · exact hp.2.1.chars c h
        · exact hs.chars c (List.mem_of_mem_drop h)
      · rw [← hr]
        simp [List.filter_append, hp.1, hp.2.2]
    · exact hs

theorem plainName_called (H : PlainProgram E) {F : Func} (hF : PlainFunc E F) (parent : Option Nat) : PlainName (calledName E F parent) := by
  unfold calledName
  split
  · exact hF.member _
  · exact hF.standard

theorem strSafe_pythonOperator (name : Str) (n : Nat) : StrSafe (pythonOperator name n) := by
  have h : ∀ p ∈ operatorTable, p.2.all (fun s => s.all fun c => c != '"' && c != '\\' && c != '\n') = true := by decide +kernel
  unfold pythonOperator
  cases hl : operatorTable.lookup name with
  | none => simp [StrSafe]
  | some vec =>
    obtain ⟨k, hk, hm⟩ : ∃ k, True ∧ (k, vec) ∈ operatorTable := by
      obtain ⟨l1, l2, he, _⟩ := List.lookup_eq_some_iff.1 hl
      exact ⟨name, trivial, by rw [he]; simp⟩
    have hv : ∀ s ∈ vec, StrSafe s := by
      intro s hs c hc
      have := List.all_eq_true.1 (List.all_eq_true.1 (h _ hm) s hs) c hc
      simpa [and_assoc] using this
    have hd : ∀ n, StrSafe (vec.getD n []) := by
      intro n
      rw [List.getD_eq_getElem?_getD]
      cases hg : vec[n]? with
      | none => simp [StrSafe]
      | some s => exact hv s (List.mem_of_getElem? hg)
    simp only
    split
    · exact hd n
    · rw [List.getLastD_eq_getLast?]
      cases hg : vec.getLast? with
      | none => simp [StrSafe]
      | some s => exact hv s (List.mem_of_getLast? hg)

theorem strSafe_pythonFunctionName {F : Func} (hF : PlainFunc E F) : StrSafe (pythonFunctionName F) := by
  unfold pythonFunctionName
  split
  · exact strSafe_pythonOperator _ _
  · exact hF.name.strSafe

theorem strSafe_boundName (H : PlainProgram E) {F : Func} (hF : PlainFunc E F) : StrSafe (boundName E F) := by
  unfold boundName
  refine StrSafe.append ?_ (strSafe_pythonFunctionName hF)
  split
  · exact H.config.staticPrefix.strSafe
  · simp [StrSafe]

theorem lex_functionDoc (H : PlainProgram E) {F : Func} (hF : PlainFunc E F) (o r : Str) :
    lex .str o (functionDoc E F ++ r) = lex .str o r := by
  have h1 : StrSafe (stdName E (F.qname ++ c!"(" ++ functionArguments E F ++ c!")" ++ maybeConst F ++ c!" --> " ++ stdTy E F.ret)) := by
    refine StrSafe.stdName H (StrSafe.append (StrSafe.append (StrSafe.append (StrSafe.append (StrSafe.append (StrSafe.append hF.qname.strSafe ?_)
      (plain_arguments H F).strSafe) ?_) (plain_maybeConst F).strSafe) ?_) (plain_stdTy H _).strSafe) <;> simp [StrSafe]
  have h2 : ∀ r, lex .str o ((if (docString F.comment).length ≠ 0 then docString F.comment ++ c!"\\n\\n" else docString F.comment) ++ r) =
      lex .str o r := by
    intro r
    split
    · rw [List.append_assoc, lex_docString]; simp only [lexLit]
    · rw [lex_docString]
  unfold functionDoc
  simp only [List.append_assoc]
  simp only [List.append_assoc] at h1 h2
  rw [h2]
  simp only [lexLit, h1.str]

theorem lex_directCallable (H : PlainProgram E) {F : Func} (hF : PlainFunc E F) (parent : Option Nat) (o r : Str) (hr : follows r = true) :
    lex .code o (directCallable E F parent ++ r) = lex .code o r := by
  unfold directCallable
  obtain ⟨h1, h2⟩ := plain_functionTemplate H hF
  have hf : follows (functionTemplateText E F ++ r) = true := by
    rcases h2 with h2 | h2
    · rw [h2]; exact hr
    · cases ht : functionTemplateText E F with
      | nil => rw [ht] at h2; simp at h2
      | cons c t => rw [ht] at h2; simp at h2; subst h2; rfl
  simp only [List.append_assoc, lexLit, (plain_functionPointer H F).code]
  rw [(plainName_called H hF parent).code _ _ hf, h1.code]

theorem neutral_lambda (H : PlainProgram E) {F : Func} (hF : PlainFunc E F) (k : Nat) (parent : Option Nat) :
    Neutral (lambdaCallable E F k parent) := by
  intro o r
  have hs : ∀ o r, lex .code o ((if k ≠ 0 then c!", " else []) ++ r) = lex .code o r := by
    intro o r; split <;> rfl
  have hc := plainName_called H hF parent
  unfold lambdaCallable
  simp only
  cases F.method with
  | none =>
    simp only [List.append_assoc, lexLit, (plain_lambdaArguments H F k).1.code, (plain_lambdaReturn H F).code]
    rw [hc.code _ _ rfl]
    simp only [lexLit, (plain_lambdaArguments H F k).2.code]
  | some m =>
    simp only
    split
    · simp only [List.append_assoc, lexLit, (plain_lambdaArguments H F k).1.code, (plain_lambdaReturn H F).code,
        (plain_classQualified H _).code, (plain_maybeConst F).code, hs]
      rw [hF.name.code _ _ rfl]
      simp only [lexLit, (plain_lambdaArguments H F k).2.code]
    · simp only [List.append_assoc, lexLit, (plain_lambdaArguments H F k).1.code, (plain_lambdaReturn H F).code]
      rw [hc.code _ _ rfl]
      simp only [lexLit, (plain_lambdaArguments H F k).2.code]

theorem neutral_returnPolicy (H : PlainProgram E) (F : Func) : Neutral (returnPolicy E F) := by
  obtain ⟨p1, p2, p3, p4, p5, p6⟩ := H.config.policies
  unfold returnPolicy
  have hc : ∀ {p : Str}, LexPlain p → Neutral (c!", " ++ p) := fun h => Neutral.append (Spec.LexPlain.neutral (by decide)) h.neutral
  repeat' split
  all_goals first
    | exact Neutral.nil
    | exact hc (by assumption)

theorem neutral_argAnnotations {F : Func} (hF : PlainFunc E F) (k : Nat) : Neutral (argAnnotations F k) := by
  refine Neutral.flatMap ?_
  intro p hp o r
  simp only [List.append_assoc, lexLit, (hF.params p (List.mem_of_mem_take hp)).strSafe.str]

theorem neutral_callGuard (H : PlainProgram E) : Neutral (callGuard E) := by
  unfold callGuard
  split
  · exact .nil
  · intro o r
    simp only [List.append_assoc, lexLit, H.config.callGuard.code]

theorem neutral_overload (H : PlainProgram E) {F : Func} (hF : PlainFunc E F) (k : Nat) (parent : Option Nat) (lam : Bool) :
    Neutral (bindOverload E F k parent lam) := by
  intro o r
  have hs : ∀ o r, lex .code o ((if F.isStatic then c!"_static" else []) ++ r) = lex .code o r := by
    intro o r; split <;> simp only [lexLit, List.nil_append]
  unfold bindOverload
  by_cases hk : (k = F.params.length && !lam) = true
  · simp only [hk, if_true, List.append_assoc, lexLit, hs, (strSafe_boundName H hF).str]
    rw [lex_directCallable H hF parent _ _ rfl]
    simp only [lexLit, lex_functionDoc H hF]
    rw [neutral_returnPolicy H F, neutral_argAnnotations hF k, neutral_callGuard H]
    simp only [lexLit]
  · simp only [hk, if_false, List.append_assoc, lexLit, hs, (strSafe_boundName H hF).str, Bool.false_eq_true]
    rw [neutral_lambda H hF k parent]
    simp only [lexLit, List.nil_append]
    rw [neutral_returnPolicy H F, neutral_argAnnotations hF k, neutral_callGuard H]
    simp only [lexLit]

theorem strSafe_functionQualified (H : PlainProgram E) {F : Func} (hF : PlainFunc E F) (b : Bool) : StrSafe (functionQualifiedName E F b) := by
  unfold functionQualifiedName
  refine StrSafe.fixBool (StrSafe.append (StrSafe.append (StrSafe.append (StrSafe.append (StrSafe.append ?_ ?_) ?_)
    (plain_arguments H F).strSafe) ?_) (plain_maybeConst F).strSafe)
  · split
    · simp [StrSafe]
    · exact (plain_stdTy H _).strSafe.append (by simp [StrSafe])
  · exact (hF.qname.strSafe.append (plain_functionTemplate H hF).1.strSafe).stdName H
  · simp [StrSafe]
  · simp [StrSafe]

theorem neutral_signature (H : PlainProgram E) {F : Func} (hF : PlainFunc E F) (b : Bool) : Neutral (signatureComment E F b) := by
  intro o r
  unfold signatureComment
  simp only [List.append_assoc, lexLit, (oneLine_of_strSafe (strSafe_functionQualified H hF b)).line, (plain_arguments H F).oneLine.line,
    lex_fileLine hF.incl hF.line]

theorem neutral_bindFunction (H : PlainProgram E) {module : Str} (hm : Neutral module) {F : Func} (hF : PlainFunc E F) (parent : Option Nat)
    (lam : Bool) : Neutral (bindFunctionText E module F parent lam) := by
  unfold bindFunctionText
  refine Neutral.append (Neutral.ite (fun _ => neutral_signature H hF false) fun _ => .nil) (Neutral.flatMap fun k _ => ?_)
  exact (hm.append (neutral_overload H hF k parent _)).append (neutral_iff.2 (by decide))

theorem neutral_moduleVariable {ns : Str} (h : LexPlain ns) : Neutral (moduleVariable ns) := by
  intro o r
  unfold moduleVariable
  simp only [List.append_assoc, lexLit, h.strSafe.str]

/-- The binding of a function. -/
theorem neutral_functionCode (H : PlainProgram E) {F : Func} (hF : PlainFunc E F) : Neutral (functionCode E F) := by
  intro o r
  unfold functionCode
  have hm : Neutral (c!"\t" ++ moduleVariable (nsOf E F.qname F.name)) :=
    Neutral.append (neutral_iff.2 (by decide)) (neutral_moduleVariable hF.namespace_)
  simp only [List.append_assoc, lexLit, hF.qname.oneLine.line, (plain_arguments H F).oneLine.line, lex_fileLine hF.incl hF.line]
  rw [neutral_bindFunction H hm hF none false]
  simp only [lexLit]

/-! ## Enumerations -/

theorem neutral_enumerator {e : Str × Str} (h : LexPlain e.1 ∧ LexPlain e.2) : Neutral (c!"\t\t.value(\"" ++ e.1 ++ c!"\", " ++ e.2 ++ c!")") := by
  intro o r
  simp only [List.append_assoc, lexLit, h.1.strSafe.str, h.2.code]

theorem enumerators_shape (es : List (Str × Str)) (h : ∀ x ∈ es, LexPlain x.1 ∧ LexPlain x.2) (s : Str) (hs : Neutral s) :
    ∃ t, s ++ c!"\n" ++ es.flatMap enumeratorLine = t ++ c!"\n" ∧ Neutral t := by
  induction es generalizing s with
  | nil => exact ⟨s, by simp, hs⟩
  | cons e es ih =>
    obtain ⟨t, ht, hn⟩ := ih (fun x hx => h x (by simp [hx])) (s ++ c!"\n" ++ (c!"\t\t.value(\"" ++ e.1 ++ c!"\", " ++ e.2 ++ c!")"))
      ((hs.append (neutral_iff.2 (by decide))).append (neutral_enumerator (h e (by simp))))
    refine ⟨t, ?_, hn⟩
    rw [← ht]
    simp [enumeratorLine]

theorem neutral_bindEnum (_H : PlainProgram E) {module : Str} (hm : Neutral module) {e : EnumD} (he : PlainEnum E e) :
    Neutral (bindEnumText E module e) := by
  unfold bindEnumText
  simp only
  have hh : Neutral (c!"\tpybind11::enum_<" ++ e.qname ++ c!">(" ++ module ++ c!", \"" ++ e.name ++ c!"\"" ++
    (if e.isScoped then [] else c!", pybind11::arithmetic()") ++ c!", \"" ++ docString e.comment ++ c!"\"" ++
    (if answer (moduleLocalRequested E.cfg (nsOf E e.qname e.name)) then c!", pybind11::module_local()" else []) ++ c!")") := by
    intro o r
    have h1 : ∀ o r, lex .code o ((if e.isScoped then [] else c!", pybind11::arithmetic()") ++ r) = lex .code o r := by
      intro o r; split <;> simp only [lexLit, List.nil_append]
    have h2 : ∀ o r, lex .code o ((if answer (moduleLocalRequested E.cfg (nsOf E e.qname e.name)) then c!", pybind11::module_local()" else []) ++ r) =
        lex .code o r := by
      intro o r; split <;> simp only [lexLit, List.nil_append]
    simp only [List.append_assoc, lexLit, he.qname.code]
    rw [hm]
    simp only [lexLit, he.name.strSafe.str, h1, lex_docString, h2]
  obtain ⟨t, ht, hn⟩ := enumerators_shape e.enumerators he.enumerators _ hh
  have e1 : (c!"\tpybind11::enum_<" ++ e.qname ++ c!">(" ++ module ++ c!", \"" ++ e.name ++ c!"\"" ++
    (if e.isScoped then [] else c!", pybind11::arithmetic()") ++ c!", \"" ++ docString e.comment ++ c!"\"" ++
    (if answer (moduleLocalRequested E.cfg (nsOf E e.qname e.name)) then c!", pybind11::module_local()" else []) ++ c!")\n" ++
    e.enumerators.flatMap enumeratorLine) = t ++ c!"\n" := by
    rw [← ht]
    simp
  rw [e1, List.dropLast_concat]
  refine hn.append ?_
  split <;> exact neutral_iff.2 (by decide)

/-- The binding of an enumeration. -/
theorem neutral_enumCode (H : PlainProgram E) {e : EnumD} (he : PlainEnum E e) : Neutral (enumCode E e) := by
  unfold enumCode
  exact (((Neutral.append (neutral_iff.2 (by decide)) (neutral_comment H he.qname.oneLine he.incl he.line)).append
    (neutral_bindEnum H (neutral_moduleVariable he.namespace_) he))).append (neutral_iff.2 (by decide))

end

end Binder
