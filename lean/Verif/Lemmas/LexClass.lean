import Verif.Lemmas.LexFunction
import Verif.Lemmas.Trampoline
import Verif.Lemmas.StripName

/-! Lemmas about reading text: bindings of classes. -/

namespace Binder

open Spec Cxx

/-! ## Indentation -/

/-- The modes in which a line can begin. -/
def lineStart (m : LexMode) : Prop := m = .code ∨ m = .line

theorem lexCode_newline (o : Str) : lexCode o '\n' = some (.code, o) := rfl

theorem lexStep_newline {m m' : LexMode} {o o' : Str} (h : lexStep m o '\n' = some (m', o')) : lineStart m' := by
  cases m <;> simp [lexStep, lexCode] at h <;> simp [lineStart, ← h.1]

theorem lex_newline {m m' : LexMode} {o o' l : Str} (h : lex m o (l ++ ['\n']) = some (m', o')) : lineStart m' := by
  rw [lex_append] at h
  cases hl : lex m o l with
  | none => simp [hl] at h
  | some p =>
    rw [hl] at h
    simp only [Option.bind, lex] at h
    cases hs : lexStep p.1 p.2 '\n' with
    | none => simp [hs] at h
    | some q =>
      rw [hs] at h
      simp at h
      obtain ⟨rfl, rfl⟩ := h
      exact lexStep_newline hs

theorem lex_tabs {ind : Str} (hi : ∀ c ∈ ind, c = '\t') {m : LexMode} (hm : lineStart m) (o r : Str) : lex m o (ind ++ r) = lex m o r := by
  induction ind with
  | nil => rfl
  | cons c ind ih =>
    have hc := hi c (by simp)
    subst hc
    have := ih fun x hx => hi x (by simp [hx])
    rcases hm with rfl | rfl
    · exact this
    · exact this

theorem lex_indented {ind : Str} (hi : ∀ c ∈ ind, c = '\t') (ls : List Str) {m : LexMode} (hm : lineStart m) (o : Str) :
    lex m o (terminated '\n' (ls.map fun l => if l = [] then [] else ind ++ l)) = lex m o (terminated '\n' ls) := by
  induction ls generalizing m o with
  | nil => rfl
  | cons l ls ih =>
    simp only [List.map_cons, terminated]
    have h1 : ∀ r, lex m o ((if l = [] then [] else ind ++ l) ++ r) = lex m o (l ++ r) := by
      intro r
      split
      · simp_all
      · rw [List.append_assoc, lex_tabs hi hm]
    rw [h1]
    have h2 : ∀ x : Str, lex m o (l ++ '\n' :: x) = (lex m o (l ++ ['\n'])).bind fun p => lex p.1 p.2 x := by
      intro x
      rw [← lex_append]
      simp
    have a := h2 (terminated '\n' (ls.map fun l => if l = [] then [] else ind ++ l))
    have b := h2 (terminated '\n' ls)
    rw [a, b]
    cases hl : lex m o (l ++ ['\n']) with
    | none => rfl
    | some p => exact ih (lex_newline hl) p.2

theorem neutral_indent {s ind : Str} (h : Neutral s) (hi : ∀ c ∈ ind, c = '\t') : Neutral (indent s ind) := by
  refine neutral_iff.2 ?_
  unfold LexWellFormed
  rw [indent_eq_terminated, lex_indented hi _ (.inl rfl)]
  have := (isLines_split '\n' s).2
  rw [this]
  split
  · exact neutral_iff.1 h
  · exact neutral_iff.1 (h.append (neutral_iff.2 (by decide)))

/-! ## Mangled names -/

theorem isBr_not_sep {c : Char} (h : isMangleSep c = true) : isBr c = false := by
  simp only [isMangleSep, Bool.or_eq_true, beq_iff_eq] at h
  rcases h with (((rfl | rfl) | rfl) | rfl) | rfl <;> rfl

theorem filter_mangleLoop (s r : Str) : (mangleLoop r s).filter isBr = r.filter isBr ++ s.filter isBr := by
  induction s generalizing r with
  | nil => simp [mangleLoop]
  | cons c s ih =>
    rw [mangleLoop, ih]
    cases hs : isMangleSep c with
    | true =>
      have hb := isBr_not_sep hs
      simp only [if_true]
      rw [List.filter_cons_of_neg (by simp [hb])]
      split
      · simp [List.filter_append, isBr]
      · rfl
    | false =>
      simp only [Bool.false_eq_true, if_false, List.filter_append, List.append_assoc]
      congr 1
      cases hb : isBr c <;> simp [hb]

theorem Spec.LexPlain.mangleLoop {s : Str} (h : LexPlain s) : LexPlain (mangleLoop [] s) := by
  refine plain_congr h ?_ (by rw [filter_mangleLoop]; rfl)
  intro c hc
  rcases mem_mangleLoop hc with h' | rfl | h'
  · simp at h'
  · decide
  · exact h.chars c h'.1

theorem Spec.LexPlain.mangle {s : Str} (h : LexPlain s) (b : Bool) : LexPlain (mangleTypeName s b) := by
  unfold mangleTypeName
  simp only
  split
  · refine Spec.LexPlain.append ((h.mangleLoop.replaceAll (by simp) (by decide) (by decide) ?_).replaceAll (by simp) (by decide) (by decide) ?_) (by decide)
    · unfold noSpecial; decide
    · unfold noSpecial; decide
  · exact h.mangleLoop

theorem StrSafe.replaceAll {s a b : Str} (h : StrSafe s) (hb : StrSafe b) : StrSafe (replaceAll s a b) := by
  intro c hc
  rcases mem_replaceAll hc with h' | h'
  · exact h c h'
  · exact hb c h'

theorem StrSafe.mangle {s : Str} (h : StrSafe s) (b : Bool) : StrSafe (mangleTypeName s b) := by
  have hl : StrSafe (mangleLoop [] s) := by
    intro c hc
    rcases mem_mangleLoop hc with h' | rfl | h'
    · simp at h'
    · decide
    · exact h c h'.1
  unfold mangleTypeName
  simp only
  split
  · exact ((hl.replaceAll (by unfold StrSafe; decide)).replaceAll (by unfold StrSafe; decide)).append (by unfold StrSafe; decide)
  · exact hl

theorem noStd_classTemplate {C : Record} (h : ∀ as, C.targs = some as → ∀ a ∈ as, PlainArg a) :
    beginsWith (applyNameMap (classTemplateText C)) c!"std::" = false := by
  unfold classTemplateText
  split
  · rename_i as ha
    rcases (plain_templ (fun a : TArg => classArgText a.text) as fun a hm => plain_classArgText (h as ha a hm).text).2 with e | e
    · rw [e]; decide
    · exact noStd_of_head (head_fixBool e)
  · rfl

section
variable {E : Env}

theorem plain_pythonClass (H : PlainProgram E) (i : Nat) : LexPlain (pythonClassName E (E.cls i)) := (plain_className H i).mangle true

theorem plain_callbackName (H : PlainProgram E) (i : Nat) : LexPlain (callbackName E i) := by
  unfold callbackName
  have hns : LexPlain (replaceAll (nsOf E (E.cls i).qname (E.cls i).name) c!"::" c!"_") :=
    (H.records i).namespace_.replaceAll (by simp) (by decide) (by decide) (by unfold noSpecial; decide)
  refine Spec.LexPlain.mangle (Spec.LexPlain.append (Spec.LexPlain.append (by decide) ?_) (plain_pythonClass H i)) false
  split
  · exact plain_nil
  · exact hns.append (by decide)

theorem plain_trampolineName (H : PlainProgram E) (i : Nat) : LexPlain (trampolineName E i) := by
  unfold trampolineName
  split
  · exact plain_callbackName H i
  · exact plain_nil

/-! ## Trampolines -/

theorem plain_methods (H : PlainProgram E) {i : Nat} {m : Func} (h : m ∈ (E.cls i).methods) : PlainFunc E m := by
  unfold Record.methods at h
  obtain ⟨x, hx, he⟩ := List.mem_filterMap.1 h
  have := (H.records i).members x hx
  cases x <;> simp at he
  subst he
  exact this

theorem plain_overrideReturn (H : PlainProgram E) (m : Func) : LexPlain (overrideReturn E m) := (plain_stdTy H m.ret).fixBool

theorem plain_aliasName (k : Nat) : LexPlain (aliasName k) := Spec.LexPlain.append (by decide) (plain_natStr k)

theorem plain_aliasedType (H : PlainProgram E) (m : Func) : LexPlain (aliasedType E m) := by
  unfold aliasedType
  have h := plain_overrideReturn H m
  split
  · rename_i hb
    obtain ⟨r, hr⟩ := (beginsWith_iff _ _).1 hb
    refine plain_congr h (fun c hc => h.chars c (List.mem_of_mem_drop hc)) ?_
    rw [← hr]
    rfl
  · exact h

theorem plain_overrideType (H : PlainProgram E) (o : Override) : LexPlain (overrideType E o) := by
  unfold overrideType
  split
  · exact plain_aliasName _
  · exact plain_overrideReturn H _

theorem neutral_exceptionText (m : Func) : Neutral (exceptionText m) := by
  unfold exceptionText
  split
  · exact .nil
  · simp only
    split
    · exact neutral_iff.2 (by decide)
    · split
      · exact neutral_iff.2 (by decide)
      · exact .nil

theorem neutral_overrideBody {cls name args ret : Str} (hc : LexPlain cls) (hn : StrSafe name) (ha : LexPlain args) (hr : LexPlain ret) :
    Neutral (overrideBody cls name args ret) := by
  intro o r
  unfold overrideBody
  simp only [List.append_assoc, lexLit, hc.code, hn.str, ha.code, hr.code]

theorem neutral_overrideFallback (H : PlainProgram E) {o : Override} (hm : PlainFunc E o.method) : Neutral (overrideFallback E o) := by
  intro op r
  unfold overrideFallback
  split
  · simp only [List.append_assoc, lexLit, (H.records o.cls).name.strSafe.str, (strSafe_pythonFunctionName hm).str]
  · simp only [List.append_assoc, lexLit, (H.records o.cls).name.code]
    rw [hm.name.code _ _ rfl]
    simp only [lexLit, (plain_overloadArguments H o.method).2.code]

theorem neutral_overrideBodyText (H : PlainProgram E) {cls : Str} (hc : LexPlain cls) {o : Override} (hm : PlainFunc E o.method) :
    Neutral (overrideBodyText E cls o) := by
  unfold overrideBodyText
  simp only
  split
  · exact (neutral_indent (neutral_overrideBody hc (strSafe_pythonFunctionName hm) (plain_overloadArguments H _).2 (plain_overrideType H o))
      (by decide)).append (neutral_overrideFallback H hm)
  · intro op r
    have h1 : ∀ o' r, lex .code o' ((if (overloadArguments E o.method).2.length > 0 then c!", " ++ (overloadArguments E o.method).2 else []) ++ r) =
        lex .code o' r := by
      intro o' r
      split
      · rw [List.append_assoc]; simp only [lexLit, (plain_overloadArguments H o.method).2.code]
      · rfl
    simp only [List.append_assoc, lexLit, (H.config.trampolines _).code, (H.records o.cls).name.code, (plain_callbackName H o.cls).code,
      hc.strSafe.str, hm.name.strSafe.str]
    rw [h1]
    simp only [lexLit]

theorem neutral_override (H : PlainProgram E) {cls : Str} (hc : LexPlain cls) {o : Override} (hm : PlainFunc E o.method) :
    Neutral (overrideText E cls o) := by
  intro op r
  have h1 : Neutral (aliasText E o) := by
    intro o' r
    unfold aliasText
    split
    · simp only [List.append_assoc, lexLit, (plain_aliasName _).code, (plain_aliasedType H o.method).code]
    · rfl
  unfold overrideText
  simp only [List.append_assoc]
  rw [h1]
  simp only [lexLit, (plain_overrideType H o).code]
  rw [hm.name.code _ _ rfl]
  simp only [lexLit, (plain_overloadArguments H o.method).1.code, (plain_maybeConst o.method).code]
  rw [neutral_exceptionText]
  simp only [lexLit]
  rw [neutral_overrideBodyText H hc hm]
  simp only [lexLit]

theorem plain_overrides (H : PlainProgram E) {i : Nat} {o : Override} (h : o ∈ overrides E i) : PlainFunc E o.method := by
  have hi : ∀ s i m, m ∈ (E.cls i).methods → (∀ x ∈ s.out, PlainFunc E x.method) →
      ∀ x ∈ (overrideStep E i s m).out, PlainFunc E x.method := by
    intro s i m hm hs x hx
    unfold overrideStep at hx
    split at hx
    · exact hs x hx
    · split at hx
      · exact hs x hx
      · simp only at hx
        split at hx
        · exact hs x hx
        · split at hx
          all_goals
            simp only [List.mem_append, List.mem_singleton] at hx
            rcases hx with hx | rfl
            · exact hs x hx
            · exact plain_methods H hm
  exact overridesF_induct E (fun s => ∀ x ∈ s.out, PlainFunc E x.method) hi _ _ i (by simp) o h

theorem neutral_classComment (H : PlainProgram E) (i : Nat) : Neutral (commentFor E (E.cls i).qname (E.cls i).incl (E.cls i).line) :=
  neutral_comment H (H.records i).qname.oneLine (H.records i).incl (H.records i).line

theorem neutral_callback (H : PlainProgram E) (i : Nat) : Neutral (callbackText E i) := by
  intro o r
  unfold callbackText
  have hq := plain_classQualified H i
  have ho : Neutral ((overrides E i).flatMap (overrideText E (classQualifiedName E (E.cls i)))) :=
    Neutral.flatMap fun x hx => neutral_override H hq (plain_overrides H hx)
  simp only [List.append_assoc]
  rw [neutral_classComment H i]
  simp only [lexLit, (plain_callbackName H i).code, hq.code, (H.records i).name.code]
  rw [ho]
  simp only [lexLit]

/-! ## Members -/

/-- The names of an item can stand in code. -/
def PlainItem (E : Env) : Item → Prop
  | .implicitDefault => True
  | .defaultCtor t => PlainFunc E t
  | .copyCtor t => PlainFunc E t
  | .ctor t => PlainFunc E t
  | .enum _ => True
  | .field _ f => PlainField f
  | .method f _ _ => PlainFunc E f
  | .repr F => PlainFunc E F
  | .addOn b => LexPlain b

theorem plain_ctorItem {t : Func} (h : PlainFunc E t) : PlainItem E (ctorItem t) := by
  unfold ctorItem
  split
  · exact h
  · split <;> exact h

theorem plain_ctorItems (H : PlainProgram E) {i : Nat} {x : Item} (hx : x ∈ ctorItems E i) : PlainItem E x := by
  unfold ctorItems at hx
  simp only at hx
  split at hx
  · simp only [List.mem_append] at hx
    rcases hx with (hx | hx) | hx
    · split at hx
      · simp at hx; subst hx; trivial
      · simp at hx
    · unfold ownCtors at hx
      obtain ⟨t, ht, rfl⟩ := List.mem_map.1 hx
      exact plain_ctorItem (plain_methods H (List.mem_filter.1 ht).1)
    · unfold inheritedCtors at hx
      obtain ⟨t, ht, rfl⟩ := List.mem_map.1 hx
      refine plain_ctorItem ?_
      have ht := (List.mem_filter.1 ht).1
      unfold usedCtors at ht
      obtain ⟨m, hm, ht⟩ := List.mem_flatMap.1 ht
      have hp := (H.records i).members m hm
      cases m with
      | «using» a targets =>
        simp only at ht
        split at ht
        · obtain ⟨tg, htg, he⟩ := List.mem_filterMap.1 ht
          cases tg <;> simp at he
          obtain ⟨_, rfl⟩ := he
          exact hp.2 _ htg
        · simp at ht
      | _ => simp at ht
  · simp at hx

theorem plain_dataMembers (H : PlainProgram E) {i : Nat} {x : Item} (hx : x ∈ dataMembers E i) : PlainItem E x := by
  unfold dataMembers at hx
  obtain ⟨f, hf, rfl⟩ := List.mem_map.1 hx
  show PlainField f
  simp only [List.mem_append] at hf
  rcases hf with hf | hf
  · unfold usedFields at hf
    obtain ⟨m, hm, hf⟩ := List.mem_flatMap.1 hf
    have hp := (H.records i).members m hm
    cases m with
    | «using» a targets =>
      simp only at hf
      split at hf
      · obtain ⟨tg, htg, he⟩ := List.mem_filterMap.1 hf
        cases tg <;> simp at he
        obtain ⟨_, rfl⟩ := he
        exact hp.1 _ htg
      · simp at hf
    | _ => simp at hf
  · unfold ownFields at hf
    obtain ⟨m, hm, he⟩ := List.mem_filterMap.1 hf
    have hp := (H.records i).members m hm
    cases m <;> simp at he
    obtain ⟨_, rfl⟩ := he
    exact hp

theorem plain_memberFunctions (H : PlainProgram E) {i : Nat} {x : Item} (hx : x ∈ memberFunctions E i) : PlainItem E x := by
  unfold memberFunctions at hx
  simp only [List.mem_append] at hx
  rcases hx with hx | hx
  · obtain ⟨m, hm, hx⟩ := List.mem_flatMap.1 hx
    have hp := (H.records i).members m hm
    cases m with
    | «using» a targets =>
      simp only [memberItems] at hx
      split at hx
      · obtain ⟨tg, htg, he⟩ := List.mem_filterMap.1 hx
        cases tg <;> simp at he
        obtain ⟨_, rfl⟩ := he
        exact hp.2 _ htg
      · simp at hx
    | funcTemplate specs =>
      simp only [memberItems] at hx
      obtain ⟨f, hf, he⟩ := List.mem_filterMap.1 hx
      simp at he
      obtain ⟨_, rfl⟩ := he
      exact hp f hf
    | _ => simp [memberItems] at hx
  · obtain ⟨f, hf, rfl⟩ := List.mem_map.1 hx
    exact plain_methods H (List.mem_filter.1 hf).1

theorem plain_templateBases (H : PlainProgram E) : ∀ (n i : Nat) (x : Item), x ∈ templateBasesF E n i → PlainItem E x := by
  intro n
  induction n with
  | zero => intro i x hx; simp [templateBasesF] at hx
  | succ n ih =>
    intro i x hx
    rw [templateBasesF] at hx
    split at hx
    · obtain ⟨b, _, hx⟩ := List.mem_flatMap.1 hx
      unfold templateBaseItems at hx
      split at hx
      · split at hx
        · split at hx
          · simp only [List.mem_append] at hx
            rcases hx with (hx | hx) | hx
            · exact plain_dataMembers H hx
            · exact plain_memberFunctions H hx
            · exact ih _ x hx
          · simp at hx
        · simp at hx
      · simp at hx
    · simp at hx

theorem plain_reprItems (H : PlainProgram E) {i : Nat} {x : Item} (hx : x ∈ reprItems E i) : PlainItem E x := by
  have hi : ∀ {k F}, insertionOperator E k = some F → PlainFunc E F := by
    intro k F h
    exact H.insertions F (List.mem_reverse.1 (List.mem_of_find?_eq_some h))
  unfold reprItems at hx
  simp only at hx
  split at hx
  · simp at hx
  · split at hx
    · rename_i F hF
      simp at hx
      subst hx
      unfold globalInsertion at hF
      simp only at hF
      split at hF
      · simp at hF; subst hF; exact hi ‹_›
      · split at hF
        · exact hi hF
        · simp at hF
    · simp at hx

theorem plain_classItems (H : PlainProgram E) {i : Nat} {x : Item} (hx : x ∈ classItems E i) : PlainItem E x := by
  unfold classItems at hx
  simp only [List.mem_append] at hx
  rcases hx with (((((hx | hx) | hx) | hx) | hx) | hx) | hx
  · exact plain_ctorItems H hx
  · unfold enumItems at hx
    obtain ⟨m, _, he⟩ := List.mem_filterMap.1 hx
    cases m <;> simp at he
    obtain ⟨_, rfl⟩ := he
    trivial
  · exact plain_dataMembers H hx
  · exact plain_memberFunctions H hx
  · exact plain_templateBases H _ i x hx
  · exact plain_reprItems H hx
  · unfold addOnItems at hx
    split at hx
    · rename_i b hb
      simp at hx
      subst hx
      exact H.config.addOns _ b hb
    · simp at hx

/-! ## Text of the members -/

theorem neutral_newLambda {params args type : Str} (hp : LexPlain params) (ha : LexPlain args) (ht : LexPlain type) : Neutral (newLambda params args type) := by
  intro o r
  unfold newLambda
  simp only [List.append_assoc, lexLit, hp.code, ha.code, ht.code]

theorem neutral_ctor (H : PlainProgram E) (i : Nat) {t : Func} (ht : PlainFunc E t) (k : Nat) : Neutral (ctorText E i t k) := by
  have hq := plain_classQualified H i
  have hl := plain_lambdaArguments H t k
  have hp : LexPlain (if k ≠ 0 then (lambdaArguments E t k).1 else []) := by split; exact hl.1; exact plain_nil
  unfold ctorText
  refine Neutral.append (Neutral.ite (fun _ => neutral_signature H ht true) fun _ => .nil) (Neutral.ite (fun _ => ?_) fun _ => ?_)
  · intro o r
    simp only [List.append_assoc, lexLit, (plain_arguments H t).code]
    rw [neutral_argAnnotations ht k]
    simp only [lexLit]
  · simp only
    refine Neutral.ite (fun _ => ?_) fun _ => Neutral.ite (fun _ => ?_) fun _ => ?_
    · intro o r
      simp only [List.append_assoc, lexLit]
      rw [neutral_newLambda hp hl.2 (plain_trampolineName H i)]
      simp only [lexLit]
    · intro o r
      simp only [List.append_assoc, lexLit]
      rw [neutral_newLambda hp hl.2 hq]
      simp only [lexLit]
      rw [neutral_newLambda hp hl.2 (plain_trampolineName H i)]
      simp only [lexLit]
    · intro o r
      simp only [List.append_assoc, lexLit]
      rw [neutral_newLambda hp hl.2 hq]
      simp only [lexLit]
      rw [neutral_argAnnotations ht k]
      simp only [lexLit]

theorem neutral_defaultCtor (H : PlainProgram E) (i : Nat) {t : Option Func} (ht : ∀ F, t = some F → PlainFunc E F) :
    Neutral (defaultCtorText E i t) := by
  have hq := plain_classQualified H i
  unfold defaultCtorText
  simp only
  refine Neutral.append (Neutral.ite (fun _ => ?_) fun _ => .nil) (Neutral.ite (fun _ => ?_) fun _ => Neutral.ite (fun _ => ?_) fun _ => ?_)
  · split
    · exact neutral_signature H (ht _ rfl) true
    · intro o r
      simp only [List.append_assoc, lexLit, hq.oneLine.line]
  · intro o r
    simp only [List.append_assoc, lexLit]
    rw [neutral_newLambda plain_nil plain_nil (plain_trampolineName H i)]
    simp only [lexLit]
  · intro o r
    simp only [List.append_assoc, lexLit]
    rw [neutral_newLambda plain_nil plain_nil hq]
    simp only [lexLit]
    rw [neutral_newLambda plain_nil plain_nil (plain_trampolineName H i)]
    simp only [lexLit]
  · intro o r
    simp only [List.append_assoc, lexLit]
    rw [neutral_newLambda plain_nil plain_nil hq]
    simp only [lexLit]

theorem plain_constBit (t : Func) : LexPlain (constBit t) := by
  unfold constBit
  split <;> decide

theorem neutral_copyCtor (H : PlainProgram E) (i : Nat) {t : Func} (ht : PlainFunc E t) : Neutral (copyCtorText E i t) := by
  have hcopy : ∀ {x : Str}, LexPlain x → Neutral (c!"\tcl.def( pybind11::init( " ++ newLambda (x ++ constBit t ++ c!" &o") c!"o" x ++ c!" ) );\n") := by
    intro x hx o r
    simp only [List.append_assoc, lexLit]
    have hp : LexPlain (x ++ (constBit t ++ c!" &o")) := hx.append ((plain_constBit t).append (by decide))
    rw [neutral_newLambda hp (by decide) hx]
    simp only [lexLit]
  unfold copyCtorText
  simp only
  refine Neutral.append (Neutral.ite (fun _ => neutral_signature H ht true) fun _ => .nil)
    (Neutral.ite (fun _ => Neutral.ite (fun _ => ?_) fun _ => ?_) fun _ => hcopy (plain_classQualified H i))
  · intro o r
    simp only [List.append_assoc, lexLit, (plain_trampolineName H i).code, (plain_constBit t).code]
  · exact (hcopy (plain_trampolineName H i)).append (Neutral.ite (fun _ => hcopy (plain_classQualified H i)) fun _ => .nil)

theorem neutral_repr (H : PlainProgram E) (i : Nat) {F : Func} (hF : PlainFunc E F) : Neutral (reprText E i F) := by
  have hn : Neutral (if (nsOf E F.qname F.name).length ≠ 0 then c!" using namespace " ++ nsOf E F.qname F.name ++ c!";" else []) := by
    refine Neutral.ite (fun _ => ?_) fun _ => .nil
    intro o r
    simp only [List.append_assoc, lexLit, hF.namespace_.code]
  intro o r
  unfold reprText
  simp only [List.append_assoc, lexLit, (plain_classQualified H i).code]
  simp only [List.append_assoc] at hn
  rw [hn]
  simp only [lexLit]

theorem plain_stripAnonymous {cls : Str} (h : LexPlain cls) : LexPlain (stripAnonymous cls) := by
  have hs : ∀ {s a : Str}, LexPlain s → LexPlain a → LexPlain (if endsWith s a then s.take (s.length - a.length) else s) := by
    intro s a hs ha
    split
    · rename_i he
      have := endsWith_split he
      rw [this] at hs
      exact hs.of_append ha
    · exact hs
  unfold stripAnonymous
  simp only [List.foldl_cons, List.foldl_nil]
  exact hs (hs h (by decide)) (by decide +kernel)

theorem neutral_dataMember {f : Field} (hf : PlainField f) {cls : Str} (hc : LexPlain cls) : Neutral (dataMemberText E f cls) := by
  intro o r
  unfold dataMemberText
  split <;> simp only [List.append_assoc, lexLit, hf.name.strSafe.str, (plain_stripAnonymous hc).code, hf.name.code]

theorem neutral_item (H : PlainProgram E) (i : Nat) {x : Item} (hx : PlainItem E x) : Neutral (itemText E i x) := by
  cases x with
  | implicitDefault => exact neutral_defaultCtor (t := none) H i (fun _ h => nomatch h)
  | defaultCtor t => exact neutral_defaultCtor H i (fun _ h => Option.some.inj h ▸ hx)
  | copyCtor t => exact neutral_copyCtor H i hx
  | ctor t => exact Neutral.flatMap fun k _ => (neutral_ctor H i hx k).append (neutral_iff.2 (by decide))
  | enum e => exact Neutral.append (neutral_iff.2 (by decide)) (neutral_bindEnum H (neutral_iff.2 (by decide)) (H.enums e))
  | field owner f =>
    exact (Neutral.append (neutral_iff.2 (by decide)) (neutral_dataMember hx (plain_classQualified H owner))).append (neutral_iff.2 (by decide))
  | method f parent lam => exact neutral_bindFunction H (neutral_iff.2 (by decide)) hx parent lam
  | repr F => exact neutral_repr H i hx
  | addOn b =>
    intro o r
    simp only [itemText, List.append_assoc, lexLit, Spec.LexPlain.code hx]

/-! ## Classes -/

theorem neutral_holder (H : PlainProgram E) (i : Nat) : LexPlain (holderText E i) := by
  have hq := plain_classQualified H i
  have h1 : LexPlain (c!", " ++ E.cfg.holderType ++ c!"<" ++ classQualifiedName E (E.cls i) ++ c!">") :=
    Spec.LexPlain.append (Spec.LexPlain.append (Spec.LexPlain.append (Spec.LexPlain.append (by decide) H.config.holder) (by decide)) hq) (by decide)
  have h2 : LexPlain (c!", " ++ classQualifiedName E (E.cls i) ++ c!"*") := Spec.LexPlain.append (Spec.LexPlain.append (by decide) hq) (by decide)
  unfold holderText
  simp only
  split
  · exact h1
  · split
    · split
      · exact h2
      · exact h1
    · exact h1

theorem neutral_classStatement (H : PlainProgram E) (i : Nat) : Neutral (classStatement E i) := by
  have hq := plain_classQualified H i
  have hh := neutral_holder H i
  have h1 : Neutral (if trampoline E i then c!", " ++ callbackName E i else []) :=
    Neutral.ite (fun _ => Neutral.append (neutral_iff.2 (by decide)) (plain_callbackName H i).neutral) fun _ => .nil
  have h2 : Neutral ((boundBases E (E.cls i)).flatMap fun j => c!", " ++ classQualifiedName E (E.cls j)) :=
    Neutral.flatMap fun j _ => Neutral.append (neutral_iff.2 (by decide)) (plain_classQualified H j).neutral
  have h3 : Neutral (if isEnclosed (E.cls i) then c!"enclosing_class" else moduleVariable (nsOf E (E.cls i).qname (E.cls i).name)) :=
    Neutral.ite (fun _ => neutral_iff.2 (by decide)) fun _ => neutral_moduleVariable (H.records i).namespace_
  have h4 : Neutral (if answer (moduleLocalRequested E.cfg (nsOf E (E.cls i).qname (E.cls i).name)) then c!", pybind11::module_local()" else []) :=
    Neutral.ite (fun _ => neutral_iff.2 (by decide)) fun _ => .nil
  have h5 : Neutral (if bufferProtocolRequested E.cfg (stdName E (E.cls i).qname) then c!", pybind11::buffer_protocol()" else []) :=
    Neutral.ite (fun _ => neutral_iff.2 (by decide)) fun _ => .nil
  unfold classStatement
  simp only [List.append_assoc]
  refine Neutral.append (Neutral.ite (fun _ => ?_) fun _ => .nil) ?_
  · intro o r
    simp only [List.append_assoc, lexLit, hq.code, hh.code]
  · intro o r
    simp only [List.append_assoc, lexLit, hq.code, hh.code]
    rw [h1, h2]
    simp only [lexLit]
    rw [h3]
    simp only [lexLit, (plain_pythonClass H i).strSafe.str, lex_docString]
    rw [h4, h5]
    simp only [lexLit]

/-- `cl` code of the class up to its members: it opens one brace. -/
theorem lex_classHead (H : PlainProgram E) (i : Nat) (o r : Str) : lex .code o (classHead E i ++ r) = lex .code ('}' :: o) r := by
  have h1 : Neutral (if isEnclosed (E.cls i) then c!"\tauto & enclosing_class = cl;\n" else []) :=
    Neutral.ite (fun _ => neutral_iff.2 (by decide)) fun _ => .nil
  have h2 : Neutral (if !(E.cls i).isAnonymous then classStatement E i else []) :=
    Neutral.ite (fun _ => neutral_classStatement H i) fun _ => .nil
  unfold classHead
  simp only [List.append_assoc, lexLit]
  rw [neutral_classComment H i, h1, h2]

theorem neutral_bindWith (H : PlainProgram E) (i : Nat) {b : Str} (hb : LexPlain b) : Neutral (bindWithText E i b) := by
  have h1 : Neutral (((E.cls i).targs.getD []).flatMap fun a => c!", \"" ++ fixBooleanTypes (mangleTypeName (stdName E a.text) true) ++ c!"\"") := by
    refine Neutral.flatMap fun a ha o r => ?_
    have : PlainArg a := by
      cases ht : (E.cls i).targs with
      | none => rw [ht] at ha; simp at ha
      | some as => rw [ht] at ha; exact (H.records i).targs as ht a ha
    simp only [List.append_assoc, lexLit, (((this.text.strSafe.stdName H).mangle true).fixBool).str]
  intro o r
  unfold bindWithText
  simp only [List.append_assoc, lexLit]
  rw [neutral_classComment H i]
  simp only [lexLit, hb.code, ((plain_classTemplate (H.records i).targs).stdName (noStd_classTemplate (H.records i).targs)).code]
  rw [neutral_moduleVariable (H.records i).namespace_]
  simp only [List.append_assoc] at h1
  rw [h1]
  simp only [lexLit]

theorem neutral_classF (H : PlainProgram E) : ∀ (n i : Nat), Neutral (bindClassTextF E n i).code ∧ Neutral (bindClassTextF E n i).pre := by
  intro n
  induction n with
  | zero => intro i; exact ⟨.nil, .nil⟩
  | succ n ih =>
    intro i
    rw [bindClassTextF]
    simp only
    split
    · exact ⟨.nil, .nil⟩
    · split
      · rename_i b hb
        exact ⟨neutral_bindWith H i (H.config.binders _ b hb), .nil⟩
      · have hn : Neutral (((nestedBound E (E.cls i)).map (bindClassTextF E n)).flatMap fun o => o.code ++ c!"\n") := by
          refine Neutral.flatMap fun x hx => ?_
          obtain ⟨j, _, rfl⟩ := List.mem_map.1 hx
          exact (ih j).1.append (neutral_iff.2 (by decide))
        have ht : ∀ c ∈ c!"\t", c = '\t' := by decide
        have hp : Neutral (if trampoline E i then callbackText E i else []) := Neutral.ite (fun _ => neutral_callback H i) fun _ => .nil
        have hi : Neutral ((classItems E i).flatMap (itemText E i)) := Neutral.flatMap fun x hx => neutral_item H i (plain_classItems H hx)
        have hpre : Neutral (((nestedBound E (E.cls i)).map (bindClassTextF E n)).flatMap (·.pre)) := by
          refine Neutral.flatMap fun x hx => ?_
          obtain ⟨j, _, rfl⟩ := List.mem_map.1 hx
          exact (ih j).2
        generalize (((nestedBound E (E.cls i)).map (bindClassTextF E n)).flatMap fun o => o.code ++ c!"\n") = nested at hn ⊢
        generalize (((nestedBound E (E.cls i)).map (bindClassTextF E n)).flatMap (·.pre)) = nestedPre at hpre ⊢
        have hc : Neutral (if nested.isEmpty then nested else c!"\n" ++ nested) :=
          Neutral.ite (fun _ => hn) (fun _ => Neutral.append (neutral_iff.2 (by decide)) hn)
        have hcode : Neutral (classHead E i ++ (classItems E i).flatMap (itemText E i) ++
            (if nested.isEmpty then nested else c!"\n" ++ nested) ++ c!"}\n") := by
          intro o r
          simp only [List.append_assoc]
          rw [lex_classHead H i, hi, hc]
          simp only [lexLit]
        dsimp only
        exact ⟨neutral_indent hcode ht, hp.append hpre⟩

/-- The binding of a class. -/
theorem neutral_class (H : PlainProgram E) (i : Nat) : Neutral (classOutput E i).code ∧ Neutral (classOutput E i).pre := neutral_classF H _ i

end

end Binder
