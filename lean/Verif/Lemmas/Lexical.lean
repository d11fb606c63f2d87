import Verif.Lemmas.LexTactic
import Verif.Lemmas.Replace
import Verif.Lemmas.BoolAppend
import Verif.Lemmas.Mangle
import Verif.Lemmas.Strings

/-! Lemmas about reading text: names and types, literals, comments. -/

namespace Binder

open Spec Cxx

/-! ## Brackets -/

def isBr (c : Char) : Bool := c == '(' || c == ')' || c == '[' || c == ']' || c == '{' || c == '}'

def noSpecial (s : Str) : Prop := ∀ c ∈ s, c ∉ special

theorem lexCode_other {o : Str} {c : Char} (hs : c ∉ special) (hb : isBr c = false) : lexCode o c = some (.code, o) := by
  simp only [special, List.mem_cons, List.not_mem_nil, or_false, not_or] at hs
  simp only [isBr, Bool.or_eq_false_iff, beq_eq_false_iff_ne] at hb
  simp [lexCode, hs, hb]

theorem lexCode_mode {o : Str} {c : Char} {m : LexMode} {o' : Str} (hs : c ∉ special) (h : lexCode o c = some (m, o')) : m = .code := by
  simp only [special, List.mem_cons, List.not_mem_nil, or_false, not_or] at hs
  simp only [lexCode, hs, if_false] at h
  split at h
  · simp_all
  split at h
  · simp_all
  split at h
  · simp_all
  split at h
  · cases o with
    | nil => simp at h
    | cons x xs => simp only at h; split at h <;> simp_all
  · simp_all

theorem lex_filter {s : Str} (h : noSpecial s) (o : Str) : lex .code o s = lex .code o (s.filter isBr) := by
  induction s generalizing o with
  | nil => rfl
  | cons c s ih =>
    have hc := h c (by simp)
    have hs : noSpecial s := fun x hx => h x (by simp [hx])
    cases hb : isBr c with
    | false =>
      rw [List.filter_cons_of_neg (by simp [hb])]
      simp only [lex, lexStep]
      rw [lexCode_other hc hb]
      exact ih hs o
    | true =>
      rw [List.filter_cons_of_pos hb]
      simp only [lex, lexStep]
      cases hl : lexCode o c with
      | none => rfl
      | some p =>
        obtain ⟨m, o'⟩ := p
        rw [lexCode_mode hc hl]
        exact ih hs o'

theorem lex_noSpecial_mode {s : Str} (h : noSpecial s) {o : Str} {m : LexMode} {o' : Str} (hl : lex .code o s = some (m, o')) : m = .code := by
  induction s generalizing o with
  | nil => simp [lex] at hl; exact hl.1.symm
  | cons c s ih =>
    simp only [lex, lexStep] at hl
    cases hc : lexCode o c with
    | none => simp [hc] at hl
    | some p =>
      obtain ⟨m1, o1⟩ := p
      have := lexCode_mode (h c (by simp)) hc
      subst this
      rw [hc] at hl
      exact ih (fun x hx => h x (by simp [hx])) hl

theorem lexCode_frame {o p : Str} {c : Char} {m : LexMode} {o' : Str} (h : lexCode o c = some (m, o')) :
    lexCode (o ++ p) c = some (m, o' ++ p) := by
  simp only [lexCode] at h ⊢
  repeat' split at h
  all_goals (try simp at h)
  all_goals (try (obtain ⟨rfl, rfl⟩ := h))
  all_goals simp_all

theorem lexStep_frame {m : LexMode} {o p : Str} {c : Char} {m' : LexMode} {o' : Str} (h : lexStep m o c = some (m', o')) :
    lexStep m (o ++ p) c = some (m', o' ++ p) := by
  cases m <;> simp only [lexStep] at h ⊢
  · exact lexCode_frame h
  · split
    · simp_all
    · split
      · simp_all
      · simp_all; exact lexCode_frame h
  all_goals (repeat' split at h) <;> (try simp at h) <;> (try (obtain ⟨rfl, rfl⟩ := h)) <;> simp_all

theorem lex_frame {m : LexMode} {o p s : Str} {m' : LexMode} {o' : Str} (h : lex m o s = some (m', o')) :
    lex m (o ++ p) s = some (m', o' ++ p) := by
  induction s generalizing m o with
  | nil => simp [lex] at h ⊢; simp [h]
  | cons c s ih =>
    simp only [lex] at h ⊢
    cases hc : lexStep m o c with
    | none => simp [hc] at h
    | some q =>
      rw [lexStep_frame hc]
      rw [hc] at h
      exact ih h

/-! ## Texts that leave the reader where it was -/

/-- Code that closes what it opens. -/
def Neutral (s : Str) : Prop := ∀ o r, lex .code o (s ++ r) = lex .code o r

theorem neutral_iff {s : Str} : Neutral s ↔ LexWellFormed s := by
  constructor
  · intro h
    have := h [] []
    rw [List.append_nil] at this
    exact this
  · intro h o r
    have := lex_frame (p := o) h
    exact lex_then (by simpa using this) r

theorem Neutral.nil : Neutral [] := fun _ _ => rfl

theorem Neutral.append {a b : Str} (ha : Neutral a) (hb : Neutral b) : Neutral (a ++ b) := by
  intro o r
  rw [List.append_assoc, ha, hb]

theorem Neutral.flatMap {α : Type} {l : List α} {f : α → Str} (h : ∀ x ∈ l, Neutral (f x)) : Neutral (l.flatMap f) := by
  induction l with
  | nil => exact .nil
  | cons x l ih =>
    rw [List.flatMap_cons]
    exact (h x (by simp)).append (ih fun y hy => h y (by simp [hy]))

theorem Neutral.ite {p : Prop} [Decidable p] {a b : Str} (ha : p → Neutral a) (hb : ¬ p → Neutral b) : Neutral (if p then a else b) := by
  split
  · exact ha ‹_›
  · exact hb ‹_›

/-! ## LexPlain texts -/

theorem Spec.LexPlain.neutral {s : Str} (h : LexPlain s) : Neutral s := neutral_iff.2 h.brackets

theorem Spec.LexPlain.code {s : Str} (h : LexPlain s) (o r : Str) : lex .code o (s ++ r) = lex .code o r := h.neutral o r

theorem Spec.LexPlain.slash {s : Str} (h : LexPlain s) (hh : s.head? = some '<') (o r : Str) : lex .slash o (s ++ r) = lex .code o (s ++ r) := by
  cases s with
  | nil => simp at hh
  | cons c s =>
    simp at hh
    subst hh
    rfl

/-- Nothing that ends or continues a string literal. -/
def StrSafe (s : Str) : Prop := ∀ c ∈ s, c ≠ '"' ∧ c ≠ '\\' ∧ c ≠ '\n'

theorem StrSafe.str {s : Str} (h : StrSafe s) (o r : Str) : lex .str o (s ++ r) = lex .str o r := by
  induction s with
  | nil => rfl
  | cons c s ih =>
    obtain ⟨h1, h2, h3⟩ := h c (by simp)
    simp only [List.cons_append, lex, lexStep, h1, h2, h3, if_false]
    exact ih fun x hx => h x (by simp [hx])

theorem Spec.OneLine.line {s : Str} (h : OneLine s) (o r : Str) : lex .line o (s ++ r) = lex .line o r := by
  obtain ⟨h1, h2⟩ := h
  induction s with
  | nil => rfl
  | cons c s ih =>
    simp only [List.mem_cons, not_or] at h1 h2
    simp only [List.cons_append, lex, lexStep, Ne.symm h1.1, Ne.symm h2.1, if_false]
    exact ih h1.2 h2.2

theorem strSafe_of_noSpecial {s : Str} (h : noSpecial s) : StrSafe s := by
  intro c hc
  have := h c hc
  simp only [special, List.mem_cons, List.not_mem_nil, or_false, not_or] at this
  simp [this]

theorem oneLine_of_strSafe {s : Str} (h : StrSafe s) : OneLine s :=
  ⟨fun hc => (h _ hc).2.2 rfl, fun hc => (h _ hc).2.1 rfl⟩

theorem Spec.LexPlain.strSafe {s : Str} (h : LexPlain s) : StrSafe s := strSafe_of_noSpecial h.chars

theorem StrSafe.append {a b : Str} (ha : StrSafe a) (hb : StrSafe b) : StrSafe (a ++ b) := by
  intro c hc
  simp only [List.mem_append] at hc
  rcases hc with h | h
  · exact ha c h
  · exact hb c h

theorem Spec.OneLine.append {a b : Str} (ha : OneLine a) (hb : OneLine b) : OneLine (a ++ b) := by
  simp only [OneLine, List.mem_append, not_or]
  exact ⟨⟨ha.1, hb.1⟩, ha.2, hb.2⟩

theorem Spec.OneLine.subset {a b : Str} (hb : OneLine b) (h : ∀ c ∈ a, c ∈ b) : OneLine a := ⟨fun x => hb.1 (h _ x), fun x => hb.2 (h _ x)⟩

theorem StrSafe.subset {a b : Str} (hb : StrSafe b) (h : ∀ c ∈ a, c ∈ b) : StrSafe a := fun c hc => hb c (h c hc)

theorem plain_nil : LexPlain [] := ⟨by simp, rfl⟩

theorem Spec.LexPlain.append {a b : Str} (ha : LexPlain a) (hb : LexPlain b) : LexPlain (a ++ b) where
  chars := by
    intro c hc
    simp only [List.mem_append] at hc
    rcases hc with h | h
    · exact ha.chars c h
    · exact hb.chars c h
  brackets := neutral_iff.1 (ha.neutral.append hb.neutral)

/-- The brackets decide. -/
theorem plain_congr {a b : Str} (ha : LexPlain a) (hb : noSpecial b) (h : b.filter isBr = a.filter isBr) : LexPlain b := by
  refine ⟨hb, ?_⟩
  unfold LexWellFormed
  rw [lex_filter hb, h, ← lex_filter ha.chars]
  exact ha.brackets

theorem plain_of_noBr {a : Str} (h : ∀ c ∈ a, c ∉ special ∧ isBr c = false) : LexPlain a :=
  plain_congr plain_nil (fun c hc => (h c hc).1) (by
    rw [List.filter_eq_nil_iff.2]
    · rfl
    · intro c hc; simp [(h c hc).2])

/-- A plain ending can be taken away. -/
theorem Spec.LexPlain.of_append {a b : Str} (h : LexPlain (a ++ b)) (hb : LexPlain b) : LexPlain a := by
  have ha : noSpecial a := fun c hc => h.chars c (by simp [hc])
  refine ⟨ha, ?_⟩
  have hw : lex .code [] (a ++ b) = some (.code, []) := h.brackets
  rw [lex_append] at hw
  cases hl : lex .code [] a with
  | none => simp [hl] at hw
  | some p =>
    obtain ⟨m, o⟩ := p
    have hm := lex_noSpecial_mode ha hl
    subst hm
    rw [hl] at hw
    simp only [Option.bind] at hw
    have := hb.code o []
    rw [List.append_nil] at this
    rw [this] at hw
    simp [lex] at hw
    subst hw
    exact hl

/-- Decidable characterisation for fixed texts. -/
theorem plain_iff {s : Str} : LexPlain s ↔ (s.all (fun c => !special.contains c) = true ∧ LexWellFormed s) := by
  constructor
  · intro h
    refine ⟨?_, h.brackets⟩
    simp only [List.all_eq_true]
    intro c hc
    simpa using h.chars c hc
  · intro h
    refine ⟨?_, h.2⟩
    intro c hc
    simpa using List.all_eq_true.1 h.1 c hc

instance (s : Str) : Decidable (LexPlain s) := decidable_of_iff _ plain_iff.symm

/-! ## Numbers -/

theorem mem_natStr {n : Nat} {c : Char} (h : c ∈ natStr n) : c.isDigit = true := by
  unfold natStr at h
  exact Nat.isDigit_of_mem_toDigits (by decide) (by decide) h

theorem digit_plain {c : Char} (h : c.isDigit = true) : c ∉ special ∧ isBr c = false := by
  refine ⟨?_, ?_⟩
  · intro hc
    simp only [special, List.mem_cons, List.not_mem_nil, or_false] at hc
    rcases hc with rfl | rfl | rfl | rfl | rfl | rfl <;> revert h <;> decide
  · cases hb : isBr c with
    | false => rfl
    | true =>
      simp only [isBr, Bool.or_eq_true, beq_iff_eq] at hb
      rcases hb with ((((rfl | rfl) | rfl) | rfl) | rfl) | rfl <;> revert h <;> decide

theorem plain_natStr (n : Nat) : LexPlain (natStr n) := plain_of_noBr fun _ hc => digit_plain (mem_natStr hc)

/-! ## Replacements -/

theorem filter_replaceGo {frm to : Str} (hne : frm ≠ []) (hf : frm.filter isBr = []) (ht : to.filter isBr = []) :
    ∀ (n : Nat) (s : Str), s.length ≤ n → (replaceGo frm to 0 s).filter isBr = s.filter isBr := by
  intro n
  induction n with
  | zero => intro s h; cases s with
    | nil => simp [replaceGo]
    | cons _ _ => simp at h
  | succ n ih =>
    intro s h
    cases s with
    | nil => simp [replaceGo]
    | cons c cs =>
      by_cases hp : frm <+: c :: cs
      · obtain ⟨rest, hr⟩ := hp
        rw [← hr, replaceGo_hit hne, List.filter_append, List.filter_append, hf, ht, ih rest]
        have := congrArg List.length hr
        have := length_pos_of_ne hne
        simp at *
        omega
      · rw [replaceGo_miss hp]
        have := ih cs (by simp at h; omega)
        cases hb : isBr c with
        | true => rw [List.filter_cons_of_pos hb, List.filter_cons_of_pos hb, this]
        | false => rw [List.filter_cons_of_neg (by simp [hb]), List.filter_cons_of_neg (by simp [hb]), this]

theorem Spec.LexPlain.replaceAll {s frm to : Str} (h : LexPlain s) (hne : frm ≠ []) (hf : frm.filter isBr = []) (ht : to.filter isBr = [])
    (hto : noSpecial to) : LexPlain (replaceAll s frm to) := by
  refine plain_congr h ?_ (filter_replaceGo hne hf ht s.length s (Nat.le_refl _))
  intro c hc
  rcases mem_replaceGo hc with h' | h'
  · exact h.chars c h'
  · exact hto c h'

theorem filter_fixBoolGo : ∀ (n : Nat) (s : Str) (p : Option Char), s.length ≤ n → (fixBoolGo p 0 s).filter isBr = s.filter isBr := by
  intro n
  induction n with
  | zero => intro s p h; cases s with
    | nil => simp [fixBoolGo]
    | cons _ _ => simp at h
  | succ n ih =>
    intro s p h
    cases s with
    | nil => simp [fixBoolGo]
    | cons c cs =>
      cases hm : boolMatch p (c :: cs) with
      | true =>
        obtain ⟨rest, hr⟩ := boolMatch_prefix hm
        rw [hr] at hm ⊢
        rw [fixBoolGo_hit hm, List.filter_append, List.filter_append, ih rest]
        · rfl
        · have := congrArg List.length hr
          simp [boolName] at *
          omega
      | false =>
        rw [fixBoolGo_miss hm]
        have := ih cs (some c) (by simp at h; omega)
        cases hb : isBr c with
        | true => rw [List.filter_cons_of_pos hb, List.filter_cons_of_pos hb, this]
        | false => rw [List.filter_cons_of_neg (by simp [hb]), List.filter_cons_of_neg (by simp [hb]), this]

theorem mem_fixBoolGo : ∀ (k : Nat) (s : Str) (p : Option Char) (c : Char), c ∈ fixBoolGo p k s → c ∈ s ∨ c ∈ c!"bool" := by
  intro k s p
  induction s generalizing k p with
  | nil => intro c h; simp [fixBoolGo] at h
  | cons d ds ih =>
    intro c h
    cases k with
    | succ k =>
      rw [fixBoolGo] at h
      rcases ih _ _ _ h with h | h
      · exact .inl (by simp [h])
      · exact .inr h
    | zero =>
      rw [fixBoolGo] at h
      split at h
      · simp only [List.mem_append] at h
        rcases h with h | h
        · exact .inr h
        · rcases ih _ _ _ h with h | h
          · exact .inl (by simp [h])
          · exact .inr h
      · simp only [List.mem_cons] at h
        rcases h with h | h
        · exact .inl (by simp [h])
        · rcases ih _ _ _ h with h | h
          · exact .inl (by simp [h])
          · exact .inr h

theorem mem_fixBool {s : Str} {c : Char} (h : c ∈ fixBooleanTypes s) : c ∈ s ∨ c ∉ special := by
  rcases mem_fixBoolGo _ _ _ _ h with h | h
  · exact .inl h
  · exact .inr ((by decide : ∀ c ∈ c!"bool", c ∉ special) c h)

theorem Spec.LexPlain.fixBool {s : Str} (h : LexPlain s) : LexPlain (fixBooleanTypes s) := by
  refine plain_congr h ?_ (filter_fixBoolGo s.length s none (Nat.le_refl _))
  intro c hc
  rcases mem_fixBool hc with h' | h'
  · exact h.chars c h'
  · exact h'

theorem mem_foldl_replace (l : List (Str × Str)) (hl : ∀ p ∈ l, noSpecial p.2) (s : Str) {c : Char}
    (h : c ∈ l.foldl (fun r p => Binder.replaceAll r p.1 p.2) s) : c ∈ s ∨ c ∉ special := by
  induction l generalizing s with
  | nil => exact .inl h
  | cons p l ih =>
    rw [List.foldl_cons] at h
    rcases ih (fun q hq => hl q (by simp [hq])) _ h with h | h
    · rcases mem_replaceGo h with h | h
      · exact .inl h
      · exact .inr (hl p (by simp) c h)
    · exact .inr h

theorem plain_foldl_replace (l : List (Str × Str)) (hl : ∀ p ∈ l, p.1 ≠ [] ∧ p.1.filter isBr = [] ∧ p.2.filter isBr = [] ∧ noSpecial p.2)
    (s : Str) (h : LexPlain s) : LexPlain (l.foldl (fun r p => Binder.replaceAll r p.1 p.2) s) := by
  induction l generalizing s with
  | nil => exact h
  | cons p l ih =>
    rw [List.foldl_cons]
    obtain ⟨a, b, c, d⟩ := hl p (by simp)
    exact ih (fun q hq => hl q (by simp [hq])) _ (h.replaceAll a b c d)

theorem nameMap_plain : ∀ p ∈ nameMap, p.1 ≠ [] ∧ p.1.filter isBr = [] ∧ p.2.filter isBr = [] ∧ noSpecial p.2 := by
  have h : nameMap.all (fun p => !p.1.isEmpty && (p.1.filter isBr).isEmpty && (p.2.filter isBr).isEmpty && p.2.all (fun c => !special.contains c)) = true := by
    decide +kernel
  intro p hp
  have := List.all_eq_true.1 h p hp
  simp only [Bool.and_eq_true, Bool.not_eq_true', List.isEmpty_eq_false_iff, List.isEmpty_iff, List.all_eq_true] at this
  refine ⟨this.1.1.1, this.1.1.2, this.1.2, ?_⟩
  intro c hc
  simpa using this.2 c hc

section
variable {E : Env}

theorem mem_stdName (H : PlainProgram E) {s : Str} {c : Char} (h : c ∈ stdName E s) : c ∈ s ∨ c ∉ special := by
  unfold stdName standardName at h
  have h0 : ∀ x, x ∈ applyNameMap s → x ∈ s ∨ x ∉ special := fun x hx =>
    mem_foldl_replace nameMap (fun p hp => (nameMap_plain p hp).2.2.2) s hx
  rcases mem_fixBool h with h | h
  · split at h
    · simp only [List.mem_append] at h
      rcases h with h | h
      · exact .inr ((by decide : ∀ c ∈ c!"std::", c ∉ special) c h)
      · rcases H.simplifyChars _ _ h with h | h
        · exact h0 c (List.mem_of_mem_drop h)
        · exact .inr h
    · exact h0 c h
  · exact .inr h

/-- A name that does not begin with `std::` is not simplified. -/
theorem Spec.LexPlain.stdName {s : Str} (h : LexPlain s) (hs : beginsWith (applyNameMap s) c!"std::" = false) : LexPlain (stdName E s) := by
  unfold Binder.stdName standardName
  have h0 : LexPlain (applyNameMap s) := plain_foldl_replace nameMap nameMap_plain s h
  refine LexPlain.fixBool ?_
  rw [hs]
  exact h0

theorem StrSafe.stdName (H : PlainProgram E) {s : Str} (h : StrSafe s) : StrSafe (stdName E s) := by
  intro c hc
  rcases mem_stdName H hc with h' | h'
  · exact h c h'
  · simp only [special, List.mem_cons, List.not_mem_nil, or_false, not_or] at h'
    simp [h']

theorem Spec.OneLine.stdName (H : PlainProgram E) {s : Str} (h : OneLine s) : OneLine (Binder.stdName E s) := by
  constructor
  · intro hc
    rcases mem_stdName H hc with h' | h'
    · exact h.1 h'
    · exact h' (by decide)
  · intro hc
    rcases mem_stdName H hc with h' | h'
    · exact h.2 h'
    · exact h' (by decide)

theorem plain_stdTy (H : PlainProgram E) (t : Ty) : LexPlain (stdTy E t) := by
  unfold stdTy
  split
  · exact (H.types t).1
  · exact (H.types _).2

theorem StrSafe.fixBool {s : Str} (h : StrSafe s) : StrSafe (fixBooleanTypes s) := by
  intro c hc
  rcases mem_fixBool hc with h' | h'
  · exact h c h'
  · simp only [special, List.mem_cons, List.not_mem_nil, or_false, not_or] at h'
    simp [h']

end

end Binder
