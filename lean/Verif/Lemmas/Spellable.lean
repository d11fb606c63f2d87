import Verif.Spec.PyNames
import Verif.Spec.Simplify
import Verif.Lemmas.BoolAppend
import Verif.Lemmas.Replace
import Verif.Lemmas.Simplify
import Verif.Props.Strings

/-! Names of types that `mangle_type_name` turns into words of Python. -/

namespace Binder

open Cxx Spec

/-- A C++ name of a type that becomes a word. -/
structure Spellable (s : Str) : Prop where
  nonempty : s ≠ []
  head : ∀ c, s.head? = some c → isDigit c = false
  chars : ∀ c ∈ s, TypeChar c = true
  starred : '*' ∈ s ∨ '&' ∈ s → '<' ∈ s
  keyword : s ∉ pythonKeywords

theorem keyword_no_underscore {s : Str} (h : '_' ∈ s) : s ∉ pythonKeywords := by
  have : ∀ k ∈ pythonKeywords, '_' ∉ k := by decide
  exact fun hs => this s hs h

theorem keyword_plain {s : Str} {c : Char} (hc : c ∈ s) (h : IdentChar c = false) : s ∉ pythonKeywords := by
  have : ∀ k ∈ pythonKeywords, ∀ c ∈ k, IdentChar c = true := by decide
  exact fun hs => by rw [this s hs c hc] at h; cases h

theorem mangleLoop_keeps : ∀ (s r : Str), '_' ∈ r → '_' ∈ mangleLoop r s := by
  intro s
  induction s with
  | nil => intro r h; exact h
  | cons c s ih =>
    intro r h
    refine ih _ ?_
    split
    · split
      · simp
      · exact h
    · simp [h]

theorem mangleLoop_underscore {c : Char} (hc : isMangleSep c = true) : ∀ (s r : Str), c ∈ s → '_' ∈ mangleLoop r s := by
  intro s
  induction s with
  | nil => intro _ h; cases h
  | cons d s ih =>
    intro r h
    rcases List.mem_cons.1 h with rfl | h
    · refine mangleLoop_keeps s _ ?_
      rw [if_pos hc]
      split
      · simp
      · rename_i hr
        simp only [Bool.or_eq_true, bne_iff_ne, ne_eq, not_or, Classical.not_not] at hr
        exact List.mem_of_getLast? hr.2
    · exact ih _ h

theorem mangle_underscore {s : Str} {c : Char} (hm : c ∈ s) (hc : isMangleSep c = true) : '_' ∈ mangleTypeName s := by
  have h := mangleLoop_underscore hc s [] hm
  unfold mangleTypeName
  simp only
  split
  · rw [replaceAll_single, replaceAll_single, List.mem_append]
    left
    simp only [List.mem_flatMap]
    exact ⟨'_', ⟨'_', h, by decide⟩, by decide⟩
  · exact h

/-- The Python name of such a class is a word. -/
theorem Spellable.word {s : Str} (h : Spellable s) : PyWord (mangleTypeName s) := by
  refine ⟨?_, ?_⟩
  · refine C19_identifier_partial s true h.nonempty h.head ?_
    intro c hc
    have := h.chars c hc
    simp only [TypeChar, Bool.or_eq_true, beq_iff_eq] at this
    rcases this with ((((((( e | e) | e) | e) | e) | e) | e) | e)
    · exact .inl e
    all_goals first
      | exact .inr (.inl (by rw [e]; decide))
      | exact .inr (.inr ⟨rfl, ⟨'<', h.starred (by rw [← e]; simp [hc]), .inl rfl⟩, by rw [e]; decide⟩)
  · by_cases hs : ∃ c ∈ s, isMangleSep c = true
    · obtain ⟨c, hm, hc⟩ := hs
      exact keyword_no_underscore (mangle_underscore hm hc)
    · rw [C19_plain_unchanged s true (fun c hc => by
        cases e : isMangleSep c
        · rfl
        · exact absurd ⟨c, hc, e⟩ hs)]
      exact h.keyword

/-! ## Replacements -/

theorem replaceAll_head {frm to s : Str} (hne : frm ≠ []) (c : Char) (h : (replaceAll s frm to).head? = some c) (ht : to ≠ []) :
    s.head? = some c ∨ to.head? = some c := by
  cases s with
  | nil => simp [replaceAll, replaceGo] at h
  | cons d ds =>
    unfold replaceAll at h
    by_cases hp : frm <+: d :: ds
    · obtain ⟨r, hr⟩ := hp
      rw [← hr, replaceGo_hit hne] at h
      right
      cases to with
      | nil => exact absurd rfl ht
      | cons => simpa using h
    · rw [replaceGo_miss hp] at h
      left
      simpa using h

theorem replaceAll_ne_nil {frm to s : Str} (hs : s ≠ []) (hne : frm ≠ []) (ht : to ≠ []) : replaceAll s frm to ≠ [] := by
  cases s with
  | nil => exact absurd rfl hs
  | cons d ds =>
    unfold replaceAll
    by_cases hp : frm <+: d :: ds
    · obtain ⟨r, hr⟩ := hp
      rw [← hr, replaceGo_hit hne]
      cases to with
      | nil => exact absurd rfl ht
      | cons => simp
    · rw [replaceGo_miss hp]; simp

/-- Either nothing is replaced, or the text put in stands in the result. -/
theorem replaceGo_or {frm to : Str} (hne : frm ≠ []) : ∀ (s : Str) (k : Nat), k ≤ s.length →
    replaceGo frm to k s = s.drop k ∨ to <:+: replaceGo frm to k s := by
  intro s
  induction s with
  | nil => intro k hk; left; simp at hk; subst hk; rfl
  | cons c s ih =>
    intro k hk
    cases k with
    | succ k => exact ih k (by simp at hk; omega)
    | zero =>
      simp only [replaceGo]
      split
      · right; exact (List.prefix_append _ _).isInfix
      · rcases ih 0 (by omega) with e | e
        · left; rw [e]; rfl
        · right; exact List.IsInfix.trans e (List.suffix_cons _ _).isInfix

theorem replaceAll_or {frm to : Str} (hne : frm ≠ []) (s : Str) : replaceAll s frm to = s ∨ to <:+: replaceAll s frm to :=
  replaceGo_or hne s 0 (by omega)

theorem replaceGo_keeps {frm to : Str} {c : Char} (hne : frm ≠ []) (hc : c ∉ frm) : ∀ (n : Nat) (s : Str), s.length ≤ n → c ∈ s → c ∈ replaceGo frm to 0 s := by
  intro n
  induction n with
  | zero => intro s hs h; simp at hs; subst hs; cases h
  | succ n ih =>
    intro s hs h
    cases s with
    | nil => cases h
    | cons d ds =>
      by_cases hp : frm <+: d :: ds
      · obtain ⟨r, hr⟩ := hp
        rw [← hr, replaceGo_hit hne, List.mem_append]
        right
        refine ih r ?_ ?_
        · have := congrArg List.length hr
          have h0 : 0 < frm.length := List.length_pos_iff.2 hne
          simp at this hs
          omega
        · rw [← hr] at h
          rcases List.mem_append.1 h with h | h
          · exact absurd h hc
          · exact h
      · rw [replaceGo_miss hp]
        rcases List.mem_cons.1 h with e | h
        · exact e ▸ List.mem_cons_self
        · exact List.mem_cons_of_mem _ (ih ds (by simp at hs; omega) h)

theorem replaceAll_keeps {frm to s : Str} {c : Char} (hne : frm ≠ []) (hc : c ∉ frm) (h : c ∈ s) : c ∈ replaceAll s frm to :=
  replaceGo_keeps hne hc s.length s (Nat.le_refl _) h

/-- Spellable, apart from the condition on `*` and `&`. -/
structure Tame (s : Str) : Prop where
  nonempty : s ≠ []
  head : ∀ c, s.head? = some c → isDigit c = false
  chars : ∀ c ∈ s, TypeChar c = true
  keyword : s ∉ pythonKeywords

theorem Tame.replaceAll {s frm to : Str} (h : Tame s) (hne : frm ≠ []) (hto : to ≠ []) (hhead : ∀ c, to.head? = some c → isDigit c = false)
    (hchars : ∀ c ∈ to, TypeChar c = true) (hkey : ':' ∈ to) : Tame (replaceAll s frm to) := by
  refine ⟨replaceAll_ne_nil h.nonempty hne hto, ?_, ?_, ?_⟩
  · intro c hc
    rcases replaceAll_head hne c hc hto with e | e
    · exact h.head c e
    · exact hhead c e
  · intro c hc
    rcases mem_replaceGo hc with e | e
    · exact h.chars c e
    · exact hchars c e
  · rcases replaceAll_or (to := to) hne s with e | e
    · rw [e]; exact h.keyword
    · exact keyword_plain (List.IsInfix.subset e hkey) (by decide)

theorem Tame.nameMap {s : Str} (h : Tame s) : Tame (applyNameMap s) := by
  unfold applyNameMap
  have key : ∀ p ∈ Binder.nameMap, p.1 ≠ [] ∧ p.2 ≠ [] ∧ (∀ c, p.2.head? = some c → isDigit c = false) ∧ (∀ c ∈ p.2, TypeChar c = true) ∧ ':' ∈ p.2 := by
    intro p hp
    simp only [Binder.nameMap, List.mem_cons, List.not_mem_nil, or_false] at hp
    rcases hp with rfl | rfl | rfl | rfl | rfl | rfl | rfl | rfl | rfl | rfl | rfl | rfl | rfl
    all_goals
      refine ⟨by decide, by decide, ?_, by decide, by decide⟩
      intro c hc
      simp only [List.head?_cons, Option.some.injEq] at hc
      subst hc; decide
  generalize Binder.nameMap = m at key
  induction m generalizing s with
  | nil => exact h
  | cons p m ih =>
    obtain ⟨h1, h2, h3, h4, h5⟩ := key p List.mem_cons_self
    exact ih (h.replaceAll h1 h2 h3 h4 h5) fun q hq => key q (List.mem_cons_of_mem _ hq)

/-! ## `bool` -/

theorem chars_fixBoolGo {c : Char} : ∀ (n : Nat) (s : Str) (p : Option Char), s.length ≤ n → c ∈ fixBoolGo p 0 s → c ∈ s ∨ c ∈ c!"bool" := by
  intro n
  induction n with
  | zero => intro s p hs h; simp at hs; subst hs; cases h
  | succ n ih =>
    intro s p hs h
    cases s with
    | nil => cases h
    | cons d ds =>
      simp only [fixBoolGo] at h
      simp at hs
      split at h
      · rw [fixBoolGo_eq_drop] at h
        rcases List.mem_append.1 h with h | h
        · exact .inr h
        · rcases ih (ds.drop (boolName.length - 1)) _ (by simp; omega) h with h | h
          · exact .inl (List.mem_cons_of_mem _ (List.drop_subset _ _ h))
          · exact .inr h
      · rcases List.mem_cons.1 h with rfl | h
        · exact .inl List.mem_cons_self
        · rcases ih ds _ hs h with h | h
          · exact .inl (List.mem_cons_of_mem _ h)
          · exact .inr h

theorem fixBoolGo_or : ∀ (s : Str) (p : Option Char), fixBoolGo p 0 s = s ∨ c!"bool" <:+: fixBoolGo p 0 s := by
  intro s
  induction s with
  | nil => intro p; left; rfl
  | cons c s ih =>
    intro p
    simp only [fixBoolGo]
    split
    · right; exact (List.prefix_append _ _).isInfix
    · rcases ih (some c) with e | e
      · left; rw [e]
      · right; exact List.IsInfix.trans e (List.suffix_cons _ _).isInfix

theorem fixBoolGo_keeps {c : Char} (hc : c ∉ boolName) : ∀ (n : Nat) (s : Str) (p : Option Char), s.length ≤ n → c ∈ s → c ∈ fixBoolGo p 0 s := by
  intro n
  induction n with
  | zero => intro s p hs h; simp at hs; subst hs; cases h
  | succ n ih =>
    intro s p hs h
    cases s with
    | nil => cases h
    | cons d ds =>
      simp only [fixBoolGo]
      simp at hs
      split
      · rename_i hp
        simp only [Bool.and_eq_true] at hp
        obtain ⟨r, hr⟩ := List.isPrefixOf_iff_prefix.1 hp.1.1
        have e : ds.drop (boolName.length - 1) = r := by
          have : ds = boolName.tail ++ r := by
            have := congrArg List.tail hr
            simpa [boolName] using this.symm
          rw [this]; simp [boolName]
        rw [fixBoolGo_eq_drop, e, List.mem_append]
        right
        refine ih r _ ?_ ?_
        · have := congrArg List.length hr; simp [boolName] at this; omega
        · rw [← hr] at h
          rcases List.mem_append.1 h with h | h
          · exact absurd h hc
          · exact h
      · rcases List.mem_cons.1 h with rfl | h
        · exact List.mem_cons_self
        · exact List.mem_cons_of_mem _ (ih ds _ hs h)

theorem keyword_no_bool {s : Str} (h : c!"bool" <:+: s) : s ∉ pythonKeywords := by
  have : ∀ k ∈ pythonKeywords, ¬ c!"bool" <:+: k := by decide
  exact fun hs => this s hs h

theorem Tame.fixBool {s : Str} (h : Tame s) : Tame (fixBooleanTypes s) := by
  unfold fixBooleanTypes
  refine ⟨?_, ?_, ?_, ?_⟩
  · cases s with
    | nil => exact absurd rfl h.nonempty
    | cons c s => simp only [fixBoolGo]; split <;> simp
  · intro c hc
    cases s with
    | nil => exact absurd rfl h.nonempty
    | cons d s =>
      simp only [fixBoolGo] at hc
      split at hc
      · simp at hc; subst hc; decide
      · exact h.head c hc
  · intro c hc
    rcases chars_fixBoolGo s.length s none (Nat.le_refl _) hc with e | e
    · exact h.chars c e
    · have : ∀ c ∈ c!"bool", TypeChar c = true := by decide
      exact this c e
  · rcases fixBoolGo_or s none with e | e
    · rw [e]; exact h.keyword
    · exact keyword_no_bool e

/-! ## Names of classes -/

/-- Empty, or the beginning of template arguments. -/
def Opens (t : Str) : Prop := t = [] ∨ ∃ c r, t = c :: r ∧ (c = '<' ∨ c = '>')

theorem prefix_before {P Y T : Str} (h : P <+: Y ++ T) (hP : ∀ c ∈ P, c ≠ '<' ∧ c ≠ '>') (hT : Opens T) : P <+: Y := by
  rcases List.prefix_or_prefix_of_prefix h (List.prefix_append Y T) with h1 | ⟨z, rfl⟩
  · exact h1
  · have hz := (List.prefix_append_right_inj Y).1 h
    cases z with
    | nil => rw [List.append_nil]; exact List.prefix_refl _
    | cons d z =>
      exfalso
      rcases hT with rfl | ⟨c, r, rfl, hc⟩
      · simp at hz
      · have e : d = c := (List.cons_prefix_cons.1 hz).1
        have := hP d (by simp)
        rw [e] at this
        rcases hc with rfl | rfl
        · exact this.1 rfl
        · exact this.2 rfl

/-- Not in the name of the class: `std::` and the other texts that `standard_name` replaces. -/
structure PlainName (X : Str) : Prop where
  colon : ':' ∉ X
  null : ¬ c!"nullptr_t" <:+: X

theorem nameMap_entry {p : Str × Str} (hp : p ∈ nameMap) : p.1 ≠ [] ∧ p.1.head? ≠ some '<' ∧ p.1.head? ≠ some '>' ∧
    ∃ P Q, p.1 = P ++ Q ∧ (∀ c ∈ P, c ≠ '<' ∧ c ≠ '>') ∧ (':' ∈ P ∨ P = c!"nullptr_t") := by
  have key : ∀ p ∈ nameMap, p.1 ≠ [] ∧ p.1.head? ≠ some '<' ∧ p.1.head? ≠ some '>' ∧
      (∀ c ∈ p.1.takeWhile (fun c => c != '<' && c != '>'), c ≠ '<' ∧ c ≠ '>') ∧
      (':' ∈ p.1.takeWhile (fun c => c != '<' && c != '>') ∨ p.1.takeWhile (fun c => c != '<' && c != '>') = c!"nullptr_t") := by decide +kernel
  obtain ⟨h1, h2, h3, h4, h5⟩ := key p hp
  exact ⟨h1, h2, h3, _, _, (List.takeWhile_append_dropWhile ..).symm, h4, h5⟩

theorem replaceAll_front {p : Str × Str} (hp : p ∈ nameMap) {X T : Str} (hX : PlainName X) (hT : Opens T) :
    ∃ T', replaceAll (X ++ T) p.1 p.2 = X ++ T' ∧ (T = [] → T' = []) ∧ (∀ c r, T = c :: r → (c = '<' ∨ c = '>') → T' = c :: replaceAll r p.1 p.2) := by
  obtain ⟨h1, h2, h3, P, Q, hPQ, hP, hcase⟩ := nameMap_entry hp
  refine ⟨replaceAll T p.1 p.2, ?_, ?_, ?_⟩
  · refine replaceGo_skip X T ?_
    intro j hj hpre
    rw [List.drop_append_of_le_length (by omega)] at hpre
    have hPX : P <+: X.drop j := prefix_before ((List.prefix_append P Q).trans (hPQ ▸ hpre)) hP hT
    rcases hcase with h | h
    · exact hX.colon (List.drop_subset _ _ (hPX.subset h))
    · exact hX.null (h ▸ hPX.isInfix.trans (List.drop_suffix _ _).isInfix)
  · rintro rfl; rfl
  · rintro c r rfl hc
    refine replaceGo_miss ?_
    rintro ⟨t, ht⟩
    cases hq : p.1 with
    | nil => exact h1 hq
    | cons d ds =>
      rw [hq] at ht h2 h3
      simp only [List.cons_append, List.cons.injEq] at ht
      rcases hc with rfl | rfl
      · exact h2 (by rw [← ht.1]; rfl)
      · exact h3 (by rw [← ht.1]; rfl)

theorem nameMap_front {X T : Str} (hX : PlainName X) (hT : Opens T) :
    ∃ T', applyNameMap (X ++ T) = X ++ T' ∧ (T = [] → T' = []) ∧ (∀ c r, T = c :: r → (c = '<' ∨ c = '>') → ∃ r', T' = c :: r' ∧ (r = [] → r' = [])) := by
  unfold applyNameMap
  have hsub : ∀ p ∈ nameMap, p ∈ nameMap := fun _ h => h
  generalize hm : nameMap = m
  have hsub : ∀ p ∈ m, p ∈ nameMap := fun p hp => hm ▸ hp
  clear hm
  induction m generalizing T with
  | nil => exact ⟨T, rfl, id, fun c r h _ => ⟨r, h, id⟩⟩
  | cons p m ih =>
    obtain ⟨T', h1, h2, h3⟩ := replaceAll_front (hsub p List.mem_cons_self) hX hT
    have hT' : Opens T' := by
      rcases hT with h | ⟨c, r, h, hc⟩
      · exact .inl (h2 h)
      · exact .inr ⟨c, _, h3 c r h hc, hc⟩
    obtain ⟨T'', g1, g2, g3⟩ := ih hT' fun q hq => hsub q (List.mem_cons_of_mem _ hq)
    refine ⟨T'', ?_, fun h => g2 (h2 h), ?_⟩
    · rw [List.foldl_cons, h1]; exact g1
    · intro c r h hc
      obtain ⟨r', e, hr⟩ := g3 c _ (h3 c r h hc) hc
      exact ⟨r', e, fun h0 => hr (by rw [h0]; rfl)⟩

theorem not_std_front {X T : Str} (hne : X ≠ []) (hX : PlainName X) (hT : Opens T) : beginsWith (X ++ T) c!"std::" = false := by
  cases h : beginsWith (X ++ T) c!"std::"
  · rfl
  · exfalso
    have hp : c!"std::" <+: X ++ T := by
      rw [beginsWith_iff] at h
      exact h
    have := prefix_before hp (by decide) hT
    exact hX.colon (this.subset (by decide))

theorem word_plain {X : Str} (h : PyWord X) (hn : ¬ c!"nullptr_t" <:+: X) : PlainName X :=
  ⟨fun hc => by have := h.1.2.1 ':' hc; revert this; decide, hn⟩

theorem identChar_type {c : Char} (h : IdentChar c = true) : TypeChar c = true := by
  simp [TypeChar, h]

/-- The part of the name after the word: nothing, `>`, or template arguments. -/
structure ArgText (t : Str) : Prop where
  shape : t = [] ∨ t = c!">" ∨ ∃ r, t = '<' :: r
  chars : ∀ c ∈ t, TypeChar c = true

theorem classArgText_chars {a : Str} (h : ∀ c ∈ a, TypeChar c = true) : ∀ c ∈ classArgText a, TypeChar c = true := by
  unfold classArgText
  simp only
  have hsub : ∀ c ∈ (if (a.head? = some '<' && a.getLast? = some '>') = true then Str.substr a 1 (a.length - 2) else a), TypeChar c = true := by
    intro c hc
    split at hc
    · refine h c ?_
      unfold Str.substr at hc
      exact List.drop_subset _ _ (List.take_subset _ _ hc)
    · exact h c hc
  generalize (if (a.head? = some '<' && a.getLast? = some '>') = true then Str.substr a 1 (a.length - 2) else a) = b at hsub
  intro c hc
  split at hc
  · rcases List.mem_append.1 hc with hc | hc
    · exact hsub c hc
    · rw [List.mem_singleton] at hc; subst hc; decide
  · cases hc

theorem foldl_classArgs (as : List TArg) (t : Str) : as.foldl (fun t a => t ++ classArgText a.text) t = t ++ as.flatMap (fun a => classArgText a.text) := by
  induction as generalizing t with
  | nil => simp
  | cons a as ih => simp [ih]

theorem classTemplateText_shape {C : Record} (h : ∀ as, C.targs = some as → ∀ a ∈ as, ∀ c ∈ a.text, TypeChar c = true) : ArgText (classTemplateText C) := by
  unfold classTemplateText
  cases hC : C.targs with
  | none => exact ⟨.inl (by decide), fun c hc => by revert hc; simp [fixBooleanTypes, fixBoolGo]⟩
  | some as =>
    simp only
    rw [foldl_classArgs]
    have hchars : ∀ c ∈ as.flatMap (fun a => classArgText a.text), TypeChar c = true := by
      intro c hc
      obtain ⟨a, ha, hc⟩ := List.mem_flatMap.1 hc
      exact classArgText_chars (h as hC a ha) c hc
    generalize as.flatMap (fun a => classArgText a.text) = w at hchars
    have hc' : ∀ c ∈ (c!"<" ++ w).dropLast ++ c!">", TypeChar c = true := by
      intro c hc
      rcases List.mem_append.1 hc with hc | hc
      · have := List.dropLast_subset _ hc
        rcases List.mem_append.1 this with hc | hc
        · rw [List.mem_singleton] at hc; subst hc; decide
        · exact hchars c hc
      · rw [List.mem_singleton] at hc; subst hc; decide
    constructor
    · cases w with
      | nil => right; left; decide
      | cons x w =>
        right; right
        refine ⟨fixBooleanTypes ((x :: w).dropLast ++ c!">"), ?_⟩
        have : (c!"<" ++ x :: w).dropLast ++ c!">" = c!"<" ++ ((x :: w).dropLast ++ c!">") := by simp
        rw [this, fixBool_seps_left c!"<" (by decide)]; rfl
    · intro c hc
      rcases chars_fixBoolGo _ _ none (Nat.le_refl _) hc with e | e
      · exact hc' c e
      · have : ∀ c ∈ c!"bool", TypeChar c = true := by decide
        exact this c e

theorem ArgText.opens {t : Str} (h : ArgText t) : Opens t := by
  rcases h.shape with h | h | ⟨r, h⟩
  · exact .inl h
  · exact .inr ⟨'>', [], h, .inr rfl⟩
  · exact .inr ⟨'<', r, h, .inl rfl⟩

/-- The name of an ordinary class is spellable, as the generator writes it. -/
theorem standardName_spellable {X T : Str} (f : Str → Str) (hX : PyWord X) (hn : ¬ c!"nullptr_t" <:+: X) (hT : ArgText T) :
    Spellable (standardName f (X ++ T)) := by
  have hp := word_plain hX hn
  have h0 : Tame (X ++ T) := by
    refine ⟨?_, ?_, ?_, ?_⟩
    · simp [hX.1.1]
    · intro c hc
      cases hx : X with
      | nil => exact absurd hx hX.1.1
      | cons d ds =>
        rw [hx] at hc
        have := hX.1.2.2 c (by rw [hx]; simpa using hc)
        unfold isDigit
        exact Bool.eq_false_iff.2 this
    · intro c hc
      rcases List.mem_append.1 hc with hc | hc
      · exact identChar_type (hX.1.2.1 c hc)
      · exact hT.chars c hc
    · rcases hT.shape with h | h | ⟨r, h⟩
      · rw [h, List.append_nil]; exact hX.2
      · exact keyword_plain (c := '>') (by rw [h]; simp) (by decide)
      · exact keyword_plain (c := '<') (by rw [h]; simp) (by decide)
  obtain ⟨T', h1, h2, h3⟩ := nameMap_front hp hT.opens
  have hT' : Opens T' := by
    rcases hT.opens with h | ⟨c, r, h, hc⟩
    · exact .inl (h2 h)
    · obtain ⟨r', e, _⟩ := h3 c r h hc
      exact .inr ⟨c, r', e, hc⟩
  have h4 := h0.nameMap.fixBool
  have e : standardName f (X ++ T) = fixBooleanTypes (X ++ T') := by
    unfold standardName
    simp only
    rw [h1, not_std_front hX.1.1 hp hT']
    rfl
  rw [h1] at h4
  rw [e]
  refine ⟨h4.nonempty, h4.head, h4.chars, ?_, h4.keyword⟩
  intro hstar
  rcases hT.shape with h | h | ⟨r, h⟩
  · exfalso
    rw [h2 h, List.append_nil] at hstar
    have : ∀ c, c ∈ fixBooleanTypes X → IdentChar c = true := by
      intro c hc
      rcases chars_fixBoolGo _ _ none (Nat.le_refl _) hc with e | e
      · exact hX.1.2.1 c e
      · have : ∀ c ∈ c!"bool", IdentChar c = true := by decide
        exact this c e
    rcases hstar with hs | hs <;> exact absurd (this _ hs) (by decide)
  · exfalso
    obtain ⟨r', e', hr⟩ := h3 '>' [] h (.inr rfl)
    rw [e', hr rfl] at hstar
    have : ∀ c, c ∈ fixBooleanTypes (X ++ c!">") → IdentChar c = true ∨ c = '>' := by
      intro c hc
      rcases chars_fixBoolGo _ _ none (Nat.le_refl _) hc with e | e
      · rcases List.mem_append.1 e with e | e
        · exact .inl (hX.1.2.1 c e)
        · rw [List.mem_singleton] at e; exact .inr e
      · have : ∀ c ∈ c!"bool", IdentChar c = true := by decide
        exact .inl (this c e)
    rcases hstar with hs | hs <;> exact absurd (this _ hs) (by decide)
  · obtain ⟨r', e', _⟩ := h3 '<' r h (.inl rfl)
    rw [e']
    exact fixBoolGo_keeps (by decide) _ _ none (Nat.le_refl _) (by simp)

/-! ## `simplify_std_class_name` -/

theorem fits_chars {ps : List Pat} {gs gs' : List Str} {s : Str} (h : Fits ps gs s gs') :
    ∀ g ∈ gs', ∀ c ∈ g, (∃ g' ∈ gs, c ∈ g') ∨ c ∈ s := by
  induction h with
  | done gs => intro g hg c hc; exact .inl ⟨g, hg, hc⟩
  | lit l _ ih => intro g hg c hc; exact (ih g hg c hc).imp_right fun h => List.mem_append.2 (.inr h)
  | back n _ ih => intro g hg c hc; exact (ih g hg c hc).imp_right fun h => List.mem_append.2 (.inr h)
  | spaces b _ _ ih => intro g hg c hc; exact (ih g hg c hc).imp_right fun h => List.mem_append.2 (.inr h)
  | group g0 _ ih =>
    intro g hg c hc
    rcases ih g hg c hc with ⟨g', hg', hc'⟩ | h
    · rcases List.mem_append.1 hg' with hg' | hg'
      · exact .inl ⟨g', hg', hc'⟩
      · rw [List.mem_singleton] at hg'; subst hg'
        exact .inr (List.mem_append.2 (.inl hc'))
    · exact .inr (List.mem_append.2 (.inr h))

/-- The fixed texts in a replacement. -/
def subTexts (rs : List Sub) : List Str := rs.filterMap fun r => match r with
  | .lit l => some l
  | .ref _ => none

/-- Where the first fixed text begins a replacement. -/
def subFirst (rs : List Sub) : Str := match rs with
  | .lit l :: _ => l
  | _ => []

/-- The texts that are put in begin with a letter, and have a `<`. -/
theorem regexMap_out {p : List Pat × List Sub} (hp : p ∈ regexMap) : ∃ l rest, p.2 = .lit l :: rest ∧ '<' ∈ l ∧ l ≠ [] ∧ (∀ c, l.head? = some c → isDigit c = false) ∧
    (∀ l' , Sub.lit l' ∈ p.2 → ∀ c ∈ l', TypeChar c = true) := by
  have key : ∀ p ∈ regexMap, '<' ∈ subFirst p.2 ∧ (subFirst p.2).head?.all (fun c => !isDigit c) = true ∧ ∀ l ∈ subTexts p.2, ∀ c ∈ l, TypeChar c = true := by
    decide +kernel
  obtain ⟨h1, h2, h3⟩ := key p hp
  have h3' : ∀ l' , Sub.lit l' ∈ p.2 → ∀ c ∈ l', TypeChar c = true := fun l' hl' => h3 l' (List.mem_filterMap.2 ⟨_, hl', rfl⟩)
  cases hq : p.2 with
  | nil => rw [hq] at h1; cases h1
  | cons x rest =>
    cases x with
    | ref n => rw [hq] at h1; cases h1
    | lit l =>
      rw [hq] at h1 h2 h3'
      simp only [subFirst] at h1 h2
      refine ⟨l, rest, rfl, h1, ?_, ?_, h3'⟩
      · rintro rfl; cases h1
      · intro c hc
        rw [hc] at h2
        simpa using h2

theorem subst_spellable {p : List Pat × List Sub} (hp : p ∈ regexMap) {s : Str} (h : Spellable s) : Spellable (subst p s) := by
  obtain ⟨l, rest, hl, hlt, hne, hhead, hchars⟩ := regexMap_out hp
  unfold subst
  split
  · exact h
  · rename_i before gs after hm
    obtain ⟨w, hw, hf, _⟩ := findMatch_some hm
    have hin : '<' ∈ before ++ expand gs p.2 ++ after := by
      simp only [List.mem_append]
      left; right
      rw [hl]
      simp [expand, hlt]
    refine ⟨fun h0 => absurd (h0 ▸ hin) List.not_mem_nil, ?_, ?_, fun _ => hin, keyword_plain hin (by decide)⟩
    · intro c hc
      cases before with
      | nil =>
        refine hhead c ?_
        cases l with
        | nil => exact absurd rfl hne
        | cons d l => rw [hl] at hc; simpa [expand] using hc
      | cons d before =>
        refine h.head c ?_
        rw [hw]
        simpa using hc
    · intro c hc
      rcases List.mem_append.1 hc with hc | hc
      · rcases List.mem_append.1 hc with hc | hc
        · exact h.chars c (by rw [hw]; simp [hc])
        · unfold expand at hc
          obtain ⟨x, hx, hc⟩ := List.mem_flatMap.1 hc
          cases x with
          | lit l' => exact hchars l' hx c hc
          | ref n =>
            have hg : c ∈ gs.getD (n - 1) [] := hc
            rw [List.getD_eq_getElem?_getD] at hg
            cases hgn : gs[n - 1]? with
            | none => rw [hgn] at hg; cases hg
            | some g =>
              rw [hgn] at hg
              rcases fits_chars hf g (List.mem_of_getElem? hgn) c hg with ⟨_, h0, _⟩ | hcw
              · cases h0
              · exact h.chars c (by rw [hw]; simp [hcw])
      · exact h.chars c (by rw [hw]; simp [hc])

/-- The function the program uses for `simplify` keeps names spellable. -/
theorem simplifyStd_spellable {s : Str} (h : Spellable s) : Spellable (simplifyStd s) := by
  unfold simplifyStd simplifyStdF
  cases hl : stdTypedefMap.lookup s with
  | some r =>
    have key : ∀ p ∈ stdTypedefMap, p.2 ≠ [] ∧ p.2.head?.all (fun c => !isDigit c) = true ∧ (∀ c ∈ p.2, IdentChar c = true) ∧ p.2 ∉ pythonKeywords := by
      decide +kernel
    obtain ⟨k, hk⟩ : ∃ k, (k, r) ∈ stdTypedefMap := by
      have := List.lookup_eq_some_iff.1 hl
      obtain ⟨a, b, e, _⟩ := this
      exact ⟨s, by rw [e]; simp⟩
    obtain ⟨h1, h2, h3, h4⟩ := key _ hk
    refine ⟨h1, ?_, fun c hc => identChar_type (h3 c hc), ?_, h4⟩
    · intro c hc
      have hc' : r.head? = some c := hc
      simp only [hc', Option.all_some, Bool.not_eq_true'] at h2
      exact h2
    · rintro (hs | hs) <;> exact absurd (h3 _ hs) (by decide)
  | none =>
    obtain ⟨r, hr⟩ := simplifyLoopF_some (s.length + 2) s 0 (Nat.le_refl _)
    simp only [hr]
    exact (simplifyLoopF_end Spellable (fun p hp s hs => subst_spellable hp hs) hr h (fun h0 => absurd (List.length_eq_zero_iff.1 h0) h.nonempty)).1

end Binder
