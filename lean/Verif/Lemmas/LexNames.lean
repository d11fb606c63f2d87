import Verif.Lemmas.Lexical

/-! Lemmas about reading text: the names the generator builds. -/

namespace Binder

open Spec Cxx

/-! ## Names of functions -/

theorem replaceGo_cut {frm to : Str} {c : Char} (hne : frm ≠ []) (hc : c ∉ frm) (b : Str) :
    ∀ (n : Nat) (a : Str), a.length ≤ n → replaceGo frm to 0 (a ++ c :: b) = replaceGo frm to 0 a ++ c :: replaceGo frm to 0 b := by
  have hpre : ∀ x : Str, ¬ frm <+: x → ¬ frm <+: x ++ c :: b := by
    intro x hx hp
    obtain ⟨r, hr⟩ := hp
    rcases List.append_eq_append_iff.1 hr with ⟨u, h1, h2⟩ | ⟨u, h1, h2⟩
    · exact hx ⟨u, h1.symm⟩
    · cases u with
      | nil => exact hx ⟨[], by simpa using h1⟩
      | cons d u =>
        simp only [List.cons_append, List.cons.injEq] at h2
        exact hc (by rw [h1, h2.1]; simp)
  intro n
  induction n with
  | zero =>
    intro a h
    cases a with
    | nil =>
      rw [List.nil_append, replaceGo_miss]
      · simp [replaceGo]
      · simpa using hpre [] (by simpa using hne)
    | cons _ _ => simp at h
  | succ n ih =>
    intro a h
    cases a with
    | nil =>
      rw [List.nil_append, replaceGo_miss]
      · simp [replaceGo]
      · simpa using hpre [] (by simpa using hne)
    | cons d ds =>
      by_cases hp : frm <+: d :: ds
      · obtain ⟨rest, hr⟩ := hp
        have hl := congrArg List.length hr
        have := length_pos_of_ne hne
        rw [← hr, List.append_assoc, replaceGo_hit hne, replaceGo_hit hne, ih rest, List.append_assoc]
        simp at *
        omega
      · rw [List.cons_append, replaceGo_miss (by simpa using hpre (d :: ds) hp), replaceGo_miss hp, ih ds]
        · rfl
        · simp at h; omega

theorem foldl_replace_cut (l : List (Str × Str)) (t : Str) (ht : t = [] ∨ t = c!"/" ∨ t = c!"/=")
    (hl : ∀ p ∈ l, p.1 ≠ [] ∧ '/' ∉ p.1 ∧ '=' ∉ p.1) (s : Str) :
    l.foldl (fun r p => replaceAll r p.1 p.2) (s ++ t) = l.foldl (fun r p => replaceAll r p.1 p.2) s ++ t := by
  induction l generalizing s with
  | nil => rfl
  | cons p l ih =>
    obtain ⟨h1, h2, h3⟩ := hl p (by simp)
    rw [List.foldl_cons, List.foldl_cons, ← ih (fun q hq => hl q (by simp [hq]))]
    congr 1
    unfold replaceAll
    have he : replaceGo p.1 p.2 0 ['='] = ['='] := by
      simpa [replaceGo] using replaceGo_cut (to := p.2) h1 h3 [] 0 [] (by simp)
    rcases ht with rfl | rfl | rfl
    · simp
    · rw [replaceGo_cut h1 h2 [] s.length s (Nat.le_refl _)]; simp [replaceGo]
    · rw [replaceGo_cut h1 h2 ['='] s.length s (Nat.le_refl _), he]

theorem nameMap_slash : ∀ p ∈ nameMap, p.1 ≠ [] ∧ '/' ∉ p.1 ∧ '=' ∉ p.1 := by
  have h : nameMap.all (fun p => !p.1.isEmpty && !p.1.contains '/' && !p.1.contains '=') = true := by decide +kernel
  intro p hp
  have := List.all_eq_true.1 h p hp
  simp only [Bool.and_eq_true, Bool.not_eq_true', List.isEmpty_eq_false_iff] at this
  exact ⟨this.1.1, by simpa using this.1.2, by simpa using this.2⟩

theorem Spec.LexPlain.isName {s : Str} (h : LexPlain s) : PlainName s := ⟨s, [], by simp, h, .inl rfl⟩

theorem Spec.PlainName.prepend {s p : Str} (h : PlainName s) (hp : LexPlain p) : PlainName (p ++ s) := by
  obtain ⟨q, t, rfl, hq, ht⟩ := h
  exact ⟨p ++ q, t, by simp, hp.append hq, ht⟩

theorem Spec.PlainName.fixBool {s : Str} (h : PlainName s) : PlainName (fixBooleanTypes s) := by
  obtain ⟨p, t, rfl, hp, ht⟩ := h
  refine ⟨fixBooleanTypes p, t, ?_, hp.fixBool, ht⟩
  rcases ht with rfl | rfl | rfl
  · simp
  · exact fixBool_seps_right c!"/" (by decide) p
  · exact fixBool_seps_right c!"/=" (by decide) p

theorem Spec.PlainName.strSafe {s : Str} (h : PlainName s) : StrSafe s := by
  obtain ⟨p, t, rfl, hp, ht⟩ := h
  refine hp.strSafe.append ?_
  rcases ht with rfl | rfl | rfl <;> simp [StrSafe]

section
variable {E : Env}

/-- A name that does not begin with `std::` is not simplified. -/
theorem Spec.PlainName.stdName {s : Str} (h : PlainName s) (hs : beginsWith (applyNameMap s) c!"std::" = false) : PlainName (stdName E s) := by
  obtain ⟨p, t, rfl, hp, ht⟩ := h
  unfold Binder.stdName standardName
  have h0 : LexPlain (applyNameMap p) := plain_foldl_replace nameMap nameMap_plain p hp
  have h1 : applyNameMap (p ++ t) = applyNameMap p ++ t := foldl_replace_cut nameMap t ht nameMap_slash p
  refine Spec.PlainName.fixBool ?_
  rw [hs, h1]
  exact ⟨_, t, rfl, h0, ht⟩

end

/-- The text does not begin with a character that makes a comment of a slash before it. -/
def follows : Str → Bool
  | [] => false
  | c :: _ => c != '/' && c != '*'

theorem Spec.PlainName.code {s : Str} (h : PlainName s) (o r : Str) (hr : follows r = true) : lex .code o (s ++ r) = lex .code o r := by
  obtain ⟨p, t, rfl, hp, ht⟩ := h
  rw [List.append_assoc, hp.code]
  rcases ht with rfl | rfl | rfl
  · rfl
  · cases r with
    | nil => simp [follows] at hr
    | cons c r =>
      simp only [follows, Bool.and_eq_true, bne_iff_ne, ne_eq] at hr
      simp [lex, lexStep, lexCode, hr]
  · rfl

/-! ## Lists of names -/

theorem plain_commaSep {xs : List Str} (h : ∀ x ∈ xs, LexPlain x) : LexPlain (commaSep xs) := by
  induction xs with
  | nil => exact plain_nil
  | cons x xs ih =>
    cases xs with
    | nil => exact h x (by simp)
    | cons y ys =>
      rw [commaSep]
      · exact ((h x (by simp)).append (by decide)).append (ih fun z hz => h z (by simp [hz]))
      · simp

theorem plain_argName (i : Nat) : LexPlain (argName i) := Spec.LexPlain.append (by decide) (plain_natStr i)

/-! ## Template arguments -/

theorem plain_strip {a t : Str} (h : LexPlain a) (e : a = c!"<" ++ t ++ c!">") : LexPlain t := by
  subst e
  refine plain_congr h (fun c hc => h.chars c (by simp [hc])) ?_
  simp [List.filter_append, isBr]

theorem substr_strip (t : Str) : Str.substr (c!"<" ++ t ++ c!">") 1 ((c!"<" ++ t ++ c!">").length - 2) = t := by
  simp [Str.substr]

theorem head_last {a : Str} (h1 : a.head? = some '<') (h2 : a.getLast? = some '>') : ∃ t, a = c!"<" ++ t ++ c!">" := by
  cases a with
  | nil => simp at h1
  | cons c a =>
    simp at h1
    subst h1
    cases ha : a with
    | nil => rw [ha] at h2; simp at h2
    | cons d ds =>
      have hne : a ≠ [] := by rw [ha]; simp
      rw [← ha]
      refine ⟨a.dropLast, ?_⟩
      have : a.getLast hne = '>' := by
        rw [List.getLast?_cons_of_ne_nil hne, List.getLast?_eq_some_getLast hne] at h2
        simpa using h2
      have h3 := List.dropLast_concat_getLast hne
      rw [this] at h3
      simp [h3]

theorem plain_classArgText {a : Str} (h : LexPlain a) : classArgText a = [] ∨ ∃ x, classArgText a = x ++ c!"," ∧ LexPlain x := by
  unfold classArgText
  simp only
  split
  · rename_i hs
    simp only [Bool.and_eq_true, decide_eq_true_eq] at hs
    obtain ⟨t, ht⟩ := head_last hs.1 hs.2
    rw [ht, substr_strip]
    split
    · exact .inr ⟨t, rfl, plain_strip h ht⟩
    · exact .inl rfl
  · split
    · exact .inr ⟨a, rfl, h⟩
    · exact .inl rfl

theorem plain_functionArgText {a : TArg} (h : PlainArg a) : functionArgText a = [] ∨ ∃ x, functionArgText a = x ++ c!"," ∧ LexPlain x := by
  unfold functionArgText
  split
  · rename_i n hk
    split
    · exact .inl rfl
    · refine .inr ⟨_, rfl, ?_⟩
      split
      · obtain ⟨t, ht⟩ := h.pack n hk
        rw [ht, substr_strip]
        exact plain_strip h.text ht
      · exact h.text
  · exact .inr ⟨a.text, rfl, h.text⟩

/-- The variable `templ` before its last character is cut off. -/
theorem templ_shape {α : Type} (f : α → Str) (l : List α) (h : ∀ a ∈ l, f a = [] ∨ ∃ x, f a = x ++ c!"," ∧ LexPlain x) (t : Str)
    (ht : ∃ x c, t = x ++ [c] ∧ LexPlain x ∧ (x = [] ∧ c = '<' ∨ x.head? = some '<' ∧ c = ',')) :
    ∃ x c, l.foldl (fun t a => t ++ f a) t = x ++ [c] ∧ LexPlain x ∧ (x = [] ∧ c = '<' ∨ x.head? = some '<' ∧ c = ',') := by
  induction l generalizing t with
  | nil => exact ht
  | cons a l ih =>
    rw [List.foldl_cons]
    refine ih (fun b hb => h b (by simp [hb])) _ ?_
    rcases h a (by simp) with ha | ⟨y, ha, hy⟩
    · rw [ha, List.append_nil]; exact ht
    · obtain ⟨x, c, rfl, hx, hc⟩ := ht
      refine ⟨x ++ [c] ++ y, ',', by simp [ha], ?_, .inr ⟨?_, rfl⟩⟩
      · refine Spec.LexPlain.append (hx.append ?_) hy
        rcases hc with ⟨_, rfl⟩ | ⟨_, rfl⟩ <;> decide
      · rcases hc with ⟨rfl, rfl⟩ | ⟨hh, rfl⟩
        · simp
        · cases x with
          | nil => simp at hh
          | cons _ _ => simpa using hh

theorem plain_templ {α : Type} (f : α → Str) (l : List α) (h : ∀ a ∈ l, f a = [] ∨ ∃ x, f a = x ++ c!"," ∧ LexPlain x) :
    LexPlain ((l.foldl (fun t a => t ++ f a) c!"<").dropLast ++ c!">") ∧
      ((l.foldl (fun t a => t ++ f a) c!"<").dropLast ++ c!">" = c!">" ∨
        ((l.foldl (fun t a => t ++ f a) c!"<").dropLast ++ c!">").head? = some '<') := by
  obtain ⟨x, c, he, hx, hc⟩ := templ_shape f l h c!"<" ⟨[], '<', rfl, plain_nil, .inl ⟨rfl, rfl⟩⟩
  rw [he, List.dropLast_concat]
  refine ⟨hx.append (by decide), ?_⟩
  rcases hc with ⟨rfl, _⟩ | ⟨hh, _⟩
  · exact .inl rfl
  · refine .inr ?_
    cases x with
    | nil => simp at hh
    | cons _ _ => simpa using hh

theorem plain_classTemplate {C : Record} (h : ∀ as, C.targs = some as → ∀ a ∈ as, PlainArg a) : LexPlain (classTemplateText C) := by
  unfold classTemplateText
  refine Spec.LexPlain.fixBool ?_
  split
  · rename_i as ha
    exact (plain_templ (fun a : TArg => classArgText a.text) as fun a hm => plain_classArgText (h as ha a hm).text).1
  · exact plain_nil

/-- A text that does not begin with a letter keeps its beginning. -/
theorem head_replaceAll {frm to s : Str} (h : s.head? = some '<') (hf : frm.head? ≠ some '<') (hne : frm ≠ []) :
    (replaceAll s frm to).head? = some '<' := by
  cases s with
  | nil => simp at h
  | cons c s =>
    simp at h
    subst h
    unfold replaceAll
    rw [replaceGo_miss]
    · simp
    · rintro ⟨r, hr⟩
      cases frm with
      | nil => exact hne rfl
      | cons d ds => simp at hr hf; exact hf hr.1

theorem head_foldl_replace (l : List (Str × Str)) (hl : ∀ p ∈ l, p.1 ≠ [] ∧ p.1.head? ≠ some '<') (s : Str) (h : s.head? = some '<') :
    (l.foldl (fun r p => replaceAll r p.1 p.2) s).head? = some '<' := by
  induction l generalizing s with
  | nil => exact h
  | cons p l ih =>
    rw [List.foldl_cons]
    exact ih (fun q hq => hl q (by simp [hq])) _ (head_replaceAll h (hl p (by simp)).2 (hl p (by simp)).1)

theorem nameMap_head : ∀ p ∈ nameMap, p.1 ≠ [] ∧ p.1.head? ≠ some '<' := by
  have h : nameMap.all (fun p => !p.1.isEmpty && p.1.head? != some '<') = true := by decide +kernel
  intro p hp
  have := List.all_eq_true.1 h p hp
  simp only [Bool.and_eq_true, Bool.not_eq_true', List.isEmpty_eq_false_iff, bne_iff_ne] at this
  exact this

theorem head_fixBool {s : Str} (h : s.head? = some '<') : (fixBooleanTypes s).head? = some '<' := by
  cases s with
  | nil => simp at h
  | cons c s =>
    simp at h
    subst h
    unfold fixBooleanTypes
    rw [fixBoolGo_miss_head (by decide)]
    rfl

section
variable {E : Env}

theorem head_stdName {s : Str} (h : s.head? = some '<') : (stdName E s).head? = some '<' := by
  unfold stdName standardName
  have h0 : (applyNameMap s).head? = some '<' := head_foldl_replace nameMap nameMap_head s h
  refine head_fixBool ?_
  split
  · rename_i hb
    obtain ⟨r, hr⟩ := (beginsWith_iff _ _).1 hb
    rw [← hr] at h0
    simp at h0
  · exact h0

/-- A text that begins with `<` does not begin with `std::`, whatever is replaced in it. -/
theorem noStd_of_head {s : Str} (h : s.head? = some '<') : beginsWith (applyNameMap s) c!"std::" = false := by
  have h0 : (applyNameMap s).head? = some '<' := head_foldl_replace nameMap nameMap_head s h
  cases hb : beginsWith (applyNameMap s) c!"std::" with
  | false => rfl
  | true =>
    obtain ⟨r, hr⟩ := (beginsWith_iff _ _).1 hb
    rw [← hr] at h0
    simp at h0

theorem stdName_nil : stdName E [] = [] := rfl

/-- The template arguments of a function: nothing, or a text in angle brackets. -/
theorem plain_functionTemplate (H : PlainProgram E) {F : Func} (h : PlainFunc E F) :
    LexPlain (functionTemplateText E F) ∧ (functionTemplateText E F = [] ∨ (functionTemplateText E F).head? = some '<') := by
  unfold functionTemplateText
  split
  · split
    · rename_i as ha
      obtain ⟨h1, h2⟩ := plain_templ functionArgText as fun a hm => plain_functionArgText (h.targs as ha a hm)
      simp only
      split
      · exact ⟨plain_nil, .inl rfl⟩
      · rename_i hl
        have h2 : (fixBooleanTypes _).head? = some '<' := head_fixBool (h2.resolve_left fun h2 => by rw [h2] at hl; simp at hl)
        exact ⟨h1.fixBool.stdName (noStd_of_head h2), .inr (head_stdName h2)⟩
    · exact ⟨plain_nil, .inl rfl⟩
  · exact ⟨plain_nil, .inl rfl⟩

/-! ## Types in signatures -/

theorem plain_classQualified (H : PlainProgram E) (i : Nat) : LexPlain (classQualifiedName E (E.cls i)) :=
  (H.records i).standard

theorem plain_className (H : PlainProgram E) (i : Nat) : LexPlain (className E (E.cls i)) := (H.records i).short

theorem plain_arguments (H : PlainProgram E) (F : Func) : LexPlain (functionArguments E F) := by
  refine Spec.LexPlain.fixBool (plain_commaSep ?_)
  intro x hx
  obtain ⟨p, _, rfl⟩ := List.mem_map.1 hx
  exact plain_stdTy H _

theorem plain_lambdaParam (H : PlainProgram E) (p : Param × Nat) : LexPlain (lambdaParam E p) := by
  unfold lambdaParam
  refine Spec.LexPlain.append (Spec.LexPlain.append (Spec.LexPlain.append (plain_stdTy H _) (by decide)) ?_) (plain_argName _)
  split
  · split <;> decide
  · exact plain_nil

theorem plain_lambdaArguments (H : PlainProgram E) (F : Func) (n : Nat) :
    LexPlain (lambdaArguments E F n).1 ∧ LexPlain (lambdaArguments E F n).2 := by
  refine ⟨Spec.LexPlain.fixBool (plain_commaSep ?_), plain_commaSep ?_⟩
  · intro x hx
    obtain ⟨p, _, rfl⟩ := List.mem_map.1 hx
    exact plain_lambdaParam H p
  · intro x hx
    obtain ⟨p, _, rfl⟩ := List.mem_map.1 hx
    exact plain_argName _

theorem plain_overloadArguments (H : PlainProgram E) (F : Func) : LexPlain (overloadArguments E F).1 ∧ LexPlain (overloadArguments E F).2 := by
  refine ⟨Spec.LexPlain.fixBool (plain_commaSep ?_), plain_commaSep ?_⟩
  · intro x hx
    obtain ⟨p, _, rfl⟩ := List.mem_map.1 hx
    exact Spec.LexPlain.append (Spec.LexPlain.append (plain_stdTy H _) (by decide)) (plain_argName _)
  · intro x hx
    obtain ⟨p, _, rfl⟩ := List.mem_map.1 hx
    exact plain_argName _

theorem plain_maybeConst (F : Func) : LexPlain (maybeConst F) := by
  unfold maybeConst
  split <;> decide

theorem plain_pointer (H : PlainProgram E) (F : Func) {pre : Str} (hpre : LexPlain pre) :
    LexPlain (stdTy E F.ret ++ c!" (" ++ pre ++ c!"*)(" ++ functionArguments E F ++ c!")" ++ maybeConst F) := by
  refine ⟨?_, ?_⟩
  · have hc := (plain_maybeConst F).chars
    have h1 := (plain_stdTy H F.ret).chars
    have h2 := (plain_arguments H F).chars
    have h3 := hpre.chars
    intro c h
    simp only [List.mem_append] at h
    rcases h with ((((((h | h) | h) | h) | h) | h) | h)
    · exact h1 c h
    · exact (by decide : ∀ c ∈ c!" (", c ∉ special) c h
    · exact h3 c h
    · exact (by decide : ∀ c ∈ c!"*)(", c ∉ special) c h
    · exact h2 c h
    · exact (by decide : ∀ c ∈ c!")", c ∉ special) c h
    · exact hc c h
  · unfold LexWellFormed
    simp only [List.append_assoc, lexLit, (plain_stdTy H F.ret).code, hpre.code, (plain_arguments H F).code]
    have := (plain_maybeConst F).code [] []
    rw [List.append_nil] at this
    exact this

theorem plain_functionPointer (H : PlainProgram E) (F : Func) : LexPlain (functionPointerType E F) := by
  unfold functionPointerType
  refine Spec.LexPlain.fixBool (plain_pointer H F ?_)
  split
  · split
    · exact plain_nil
    · exact (plain_classQualified H _).append (by decide)
  · exact plain_nil

end

end Binder
