import Verif.Lemmas.Strings

/-! Lemmas about `fix_boolean_types`. -/

namespace Binder

open Spec

theorem fixBoolGo_eq_drop (p : Option Char) (k : Nat) (s : Str) : fixBoolGo p k s = fixBoolGo p 0 (s.drop k) := by
  induction k generalizing s with
  | zero => simp
  | succ k ih => cases s with
    | nil => simp [fixBoolGo]
    | cons c cs => simp [fixBoolGo, ih cs]

/-- The test made at one position of the scan. -/
def boolMatch (prev : Option Char) (s : Str) : Bool :=
  boolName.isPrefixOf s && !alnumOpt prev && !alnumOpt (s[boolName.length]?)

theorem fixBoolGo_hit {prev : Option Char} {rest : Str} (h : boolMatch prev (boolName ++ rest) = true) :
    fixBoolGo prev 0 (boolName ++ rest) = c!"bool" ++ fixBoolGo (some 'l') 0 rest := by
  have e : boolName ++ rest = '_' :: (c!"Bool" ++ rest) := by simp [boolName]
  have h' : (boolName.isPrefixOf ('_' :: (c!"Bool" ++ rest)) && !alnumOpt prev &&
      !alnumOpt ((c!"Bool" ++ rest)[boolName.length - 1]?)) = true := by
    rw [e] at h; simpa [boolMatch, boolName] using h
  rw [e]
  simp only [fixBoolGo]
  rw [if_pos h', fixBoolGo_eq_drop]
  simp [boolName]

theorem fixBoolGo_miss {prev : Option Char} {c : Char} {cs : Str} (h : boolMatch prev (c :: cs) = false) :
    fixBoolGo prev 0 (c :: cs) = c :: fixBoolGo (some c) 0 cs := by
  have h' : (boolName.isPrefixOf (c :: cs) && !alnumOpt prev &&
      !alnumOpt (cs[boolName.length - 1]?)) = false := by
    simpa [boolMatch, boolName] using h
  simp only [fixBoolGo]
  rw [if_neg (by rw [h']; simp)]

theorem boolMatch_prefix {prev : Option Char} {s : Str} (h : boolMatch prev s = true) : ∃ rest, s = boolName ++ rest := by
  simp only [boolMatch, Bool.and_eq_true, List.isPrefixOf_iff_prefix] at h
  obtain ⟨r, hr⟩ := h.1.1
  exact ⟨r, hr.symm⟩

theorem boolMatch_of_not_prefix {prev : Option Char} {s : Str} (h : ¬ boolName <+: s) : boolMatch prev s = false := by
  cases hm : boolMatch prev s with
  | false => rfl
  | true => obtain ⟨r, hr⟩ := boolMatch_prefix hm; exact absurd ⟨r, hr.symm⟩ h

theorem not_prefix_of_head {c : Char} {cs : Str} (h : c ≠ '_') : ¬ boolName <+: c :: cs := by
  rintro ⟨r, hr⟩
  simp [boolName] at hr
  exact h hr.1.symm

theorem fixBoolGo_miss_head {prev : Option Char} {c : Char} {cs : Str} (h : c ≠ '_') :
    fixBoolGo prev 0 (c :: cs) = c :: fixBoolGo (some c) 0 cs :=
  fixBoolGo_miss (boolMatch_of_not_prefix (not_prefix_of_head h))

/-- The previous character after reading `x` from `p`. -/
def lastOr (p : Option Char) (x : Str) : Option Char := match x.getLast? with
  | some c => some c
  | none => p

theorem lastOr_cons (p : Option Char) (c : Char) (cs : Str) : lastOr p (c :: cs) = lastOr (some c) cs := by
  unfold lastOr
  cases cs with
  | nil => simp
  | cons d ds =>
    rw [List.getLast?_cons_cons]
    cases h : (d :: ds).getLast? with
    | none => simp at h
    | some e => rfl

theorem lastOr_append (x : Str) (y : Str) : lastOr x.getLast? y = (x ++ y).getLast? := by
  unfold lastOr
  cases h : y.getLast? with
  | none => simp at h; simp [h]
  | some c => simp [h]

theorem fixBoolGo_skip {p : Option Char} (x s : Str) (h : ∀ j, j < x.length → ¬ boolName <+: (x ++ s).drop j) :
    fixBoolGo p 0 (x ++ s) = x ++ fixBoolGo (lastOr p x) 0 s := by
  induction x generalizing p with
  | nil => simp [lastOr]
  | cons c cs ih =>
    have h0 := h 0 (by simp)
    simp only [List.cons_append, List.drop_zero] at h0 ⊢
    rw [fixBoolGo_miss (boolMatch_of_not_prefix h0), ih, lastOr_cons]
    intro j hj
    simpa using h (j + 1) (by simpa using hj)

theorem boolBoundary_eq (done rest : Str) :
    boolBoundary (done ++ (boolName ++ rest)) done.length = boolMatch done.getLast? (boolName ++ rest) := by
  unfold boolBoundary boolMatch
  have hp : boolName.isPrefixOf (boolName ++ rest) = true := by
    rw [List.isPrefixOf_iff_prefix]; exact ⟨rest, rfl⟩
  rw [hp, Bool.true_and]
  congr 1
  · cases hd : done.getLast? with
    | none =>
      have hnil : done = [] := by simpa using hd
      subst hnil
      simp [alnumOpt]
    | some c =>
      have hne : done ≠ [] := by intro e; subst e; simp at hd
      have hl := length_pos_of_ne hne
      rw [List.getElem?_append_left (by omega)]
      rw [List.getLast?_eq_getElem?] at hd
      rw [hd]
      have hz : (done.length == 0) = false := by simp; exact hne
      rw [hz]
      simp [alnumOpt]
  · have e1 : (done ++ (boolName ++ rest))[done.length + boolName.length]? = rest[0]? := by
      rw [List.getElem?_append_right (by omega), List.getElem?_append_right (by omega)]
      congr 1; omega
    have e2 : (boolName ++ rest)[boolName.length]? = rest[0]? := by
      rw [List.getElem?_append_right (by omega)]; congr 1
    rw [e1, e2]
    cases rest with
    | nil => simp [alnumOpt]
    | cons c cs =>
      have : (done.length + boolName.length == (done ++ (boolName ++ (c :: cs))).length) = false := by
        simp
      rw [this]; simp [alnumOpt]

theorem fixBool_loop_aux :
    ∀ (n : Nat) (done s : Str), s.length ≤ n →
      Loop.Returns fixBoolStep (done ++ s, done.length) (done ++ fixBoolGo done.getLast? 0 s) := by
  intro n
  induction n with
  | zero =>
    intro done s hs
    have : s = [] := by cases s <;> simp_all
    subst this
    have hnone : Str.findFrom (done ++ []) boolName done.length = none := by
      rw [Str.findFrom_eq_none_iff]
      intro j h1 h2
      simp only [List.append_nil] at h2 ⊢
      have : j = done.length := by omega
      subst this
      simp [boolName]
    have hstep : fixBoolStep (done ++ [], done.length) = .inr (done ++ []) := by
      simp only [fixBoolStep, hnone]
    simpa [fixBoolGo] using Loop.returns_of_inr hstep
  | succ n ih =>
    intro done s hs
    cases hf : Str.findFrom (done ++ s) boolName done.length with
    | none =>
      have hstep : fixBoolStep (done ++ s, done.length) = .inr (done ++ s) := by
        simp only [fixBoolStep, hf]
      rw [Str.findFrom_eq_none_iff] at hf
      have : fixBoolGo done.getLast? 0 s = s := by
        have := fixBoolGo_skip (p := done.getLast?) s [] (by
          intro j hj
          have := hf (done.length + j) (by omega) (by simp; omega)
          rw [drop_add_append] at this
          simpa using this)
        simpa [fixBoolGo] using this
      rw [this]
      exact Loop.returns_of_inr hstep
    | some j =>
      have hf' := hf
      rw [Str.findFrom_eq_some_iff] at hf'
      obtain ⟨h1, h2, ⟨rest, h3⟩, h4⟩ := hf'
      obtain ⟨k, rfl⟩ : ∃ k, j = done.length + k := ⟨j - done.length, by omega⟩
      rw [drop_add_append] at h3
      have hsplit : s = s.take k ++ (boolName ++ rest) := by rw [h3, List.take_append_drop]
      have hk : k ≤ s.length := by simp at h2; omega
      generalize hx : s.take k = x at hsplit
      have hxl : x.length = k := by rw [← hx]; simp [hk]
      subst hsplit
      have hskip : fixBoolGo done.getLast? 0 (x ++ (boolName ++ rest)) =
          x ++ fixBoolGo (done ++ x).getLast? 0 (boolName ++ rest) := by
        rw [fixBoolGo_skip x (boolName ++ rest), lastOr_append]
        intro j hj
        have := h4 (done.length + j) (by omega) (by omega)
        rwa [drop_add_append] at this
      have hassoc : done ++ (x ++ (boolName ++ rest)) = (done ++ x) ++ (boolName ++ rest) := by simp
      have hpos : done.length + k = (done ++ x).length := by simp [hxl]
      have hlen : rest.length + 4 ≤ n := by
        simp [boolName] at hs; omega
      rw [hskip]
      cases hb : boolBoundary (done ++ (x ++ (boolName ++ rest))) (done.length + k) with
      | true =>
        have hstep : fixBoolStep (done ++ (x ++ (boolName ++ rest)), done.length) =
            .inl (Str.replaceAt (done ++ (x ++ (boolName ++ rest))) (done.length + k) boolName.length c!"bool", done.length + k + 1) := by
          simp only [fixBoolStep, hf, hb, if_true]
        rw [hassoc, hpos, boolBoundary_eq] at hb
        apply Loop.returns_of_inl hstep
        have e1 : Str.replaceAt (done ++ (x ++ (boolName ++ rest))) (done.length + k) boolName.length c!"bool"
            = (done ++ x ++ c!"b") ++ (c!"ool" ++ rest) := by
          unfold Str.replaceAt
          rw [hassoc, hpos, List.take_left', ← List.drop_drop, List.drop_left', List.drop_left']
          · simp
          · rfl
          · rfl
          · rfl
        have e2 : done.length + k + 1 = (done ++ x ++ c!"b").length := by simp [hxl]; omega
        rw [e1, e2]
        have hih := ih (done ++ x ++ c!"b") (c!"ool" ++ rest) (by simp; omega)
        rw [fixBoolGo_hit hb]
        have e3 : (done ++ x ++ c!"b") ++ fixBoolGo (done ++ x ++ c!"b").getLast? 0 (c!"ool" ++ rest)
            = done ++ (x ++ (c!"bool" ++ fixBoolGo (some 'l') 0 rest)) := by
          simp only [List.cons_append, List.nil_append]
          rw [fixBoolGo_miss_head (by decide), fixBoolGo_miss_head (by decide), fixBoolGo_miss_head (by decide)]
          simp
        rw [← e3]
        exact hih
      | false =>
        have hstep : fixBoolStep (done ++ (x ++ (boolName ++ rest)), done.length) =
            .inl (done ++ (x ++ (boolName ++ rest)), done.length + k + 1) := by
          simp [fixBoolStep, hf, hb]
        rw [hassoc, hpos, boolBoundary_eq] at hb
        apply Loop.returns_of_inl hstep
        have e0 : boolName ++ rest = '_' :: (c!"Bool" ++ rest) := by simp [boolName]
        have e1 : done ++ (x ++ (boolName ++ rest)) = (done ++ x ++ ['_']) ++ (c!"Bool" ++ rest) := by
          rw [e0]; simp
        have e2 : done.length + k + 1 = (done ++ x ++ ['_']).length := by simp [hxl]; omega
        have hih := ih (done ++ x ++ ['_']) (c!"Bool" ++ rest) (by simp; omega)
        rw [e2]
        rw [e0] at hb ⊢
        rw [fixBoolGo_miss hb]
        have e3 : done ++ (x ++ '_' :: fixBoolGo (some '_') 0 (c!"Bool" ++ rest)) =
            (done ++ x ++ ['_']) ++ fixBoolGo (done ++ x ++ ['_']).getLast? 0 (c!"Bool" ++ rest) := by simp
        rw [e3]
        have e4 : done ++ (x ++ '_' :: (c!"Bool" ++ rest)) = (done ++ x ++ ['_']) ++ (c!"Bool" ++ rest) := by simp
        rw [e4]
        exact hih

/-! ## Idempotence -/

theorem head_fixBoolGo {p : Option Char} {c : Char} {cs t : Str} (h : fixBoolGo p 0 cs = c :: t) (hc : c ≠ 'b') :
    ∃ cs', cs = c :: cs' ∧ t = fixBoolGo (some c) 0 cs' := by
  cases cs with
  | nil => simp [fixBoolGo] at h
  | cons d ds =>
    cases hm : boolMatch p (d :: ds) with
    | true =>
      obtain ⟨rest, hr⟩ := boolMatch_prefix hm
      rw [hr] at hm h
      rw [fixBoolGo_hit hm] at h
      simp at h
      exact absurd h.1.symm hc
    | false =>
      rw [fixBoolGo_miss hm] at h
      simp only [List.cons.injEq] at h
      obtain ⟨rfl, rfl⟩ := h
      exact ⟨ds, rfl, rfl⟩

theorem alnum_l : alnumOpt (some 'l') = true := by decide

theorem fixBoolGo_head_of_alnum {p : Option Char} (hp : alnumOpt p = true) (s : Str) :
    (fixBoolGo p 0 s)[0]? = s[0]? := by
  cases s with
  | nil => simp [fixBoolGo]
  | cons c cs =>
    rw [fixBoolGo_miss]
    · simp
    · simp [boolMatch, hp]

theorem fixBoolGo_idem_aux : ∀ (n : Nat) (s : Str) (p q : Option Char), s.length ≤ n → alnumOpt q = alnumOpt p →
    fixBoolGo q 0 (fixBoolGo p 0 s) = fixBoolGo p 0 s := by
  intro n
  induction n with
  | zero =>
    intro s p q hs _
    have : s = [] := by cases s <;> simp_all
    subst this; simp [fixBoolGo]
  | succ n ih =>
    intro s p q hs hpq
    cases s with
    | nil => simp [fixBoolGo]
    | cons c cs =>
      cases hm : boolMatch p (c :: cs) with
      | true =>
        obtain ⟨rest, hr⟩ := boolMatch_prefix hm
        rw [hr] at hm hs ⊢
        rw [fixBoolGo_hit hm]
        simp only [List.cons_append, List.nil_append]
        rw [fixBoolGo_miss_head (by decide), fixBoolGo_miss_head (by decide), fixBoolGo_miss_head (by decide),
          fixBoolGo_miss_head (by decide), ih rest (some 'l') (some 'l') (by simp [boolName] at hs; omega) rfl]
      | false =>
        rw [fixBoolGo_miss hm]
        have hnm : boolMatch q (c :: fixBoolGo (some c) 0 cs) = false := by
          cases hq : boolMatch q (c :: fixBoolGo (some c) 0 cs) with
          | false => rfl
          | true =>
            exfalso
            obtain ⟨rest, hr⟩ := boolMatch_prefix hq
            have e0 : boolName ++ rest = '_' :: 'B' :: 'o' :: 'o' :: 'l' :: rest := by simp [boolName]
            rw [e0] at hr
            simp only [List.cons.injEq] at hr
            obtain ⟨rfl, hr⟩ := hr
            obtain ⟨c1, rfl, h1⟩ := head_fixBoolGo hr (by decide)
            obtain ⟨c2, rfl, h2⟩ := head_fixBoolGo h1.symm (by decide)
            obtain ⟨c3, rfl, h3⟩ := head_fixBoolGo h2.symm (by decide)
            obtain ⟨c4, rfl, h4⟩ := head_fixBoolGo h3.symm (by decide)
            subst h4
            have hnext := fixBoolGo_head_of_alnum alnum_l c4
            have : boolMatch p ('_' :: 'B' :: 'o' :: 'o' :: 'l' :: c4) = true := by
              rw [hr] at hq
              simp only [boolMatch, boolName, List.length_cons, List.length_nil, Bool.and_eq_true, Bool.not_eq_true'] at hq ⊢
              refine ⟨⟨?_, ?_⟩, ?_⟩
              · rw [List.isPrefixOf_iff_prefix]; exact ⟨c4, rfl⟩
              · rw [← hpq]; exact hq.1.2
              · have h5 := hq.2
                simp only [List.getElem?_cons_succ] at h5 ⊢
                rwa [hnext] at h5
            rw [this] at hm
            cases hm
        rw [fixBoolGo_miss hnm, ih cs (some c) (some c) (by simpa using hs) rfl]

/-! ## Identifier level -/

/-- Identifier-level test at one position. -/
def identMatch (prev : Option Char) (s : Str) : Bool :=
  boolName.isPrefixOf s && !(prev.any IdentChar) && !((s[boolName.length]?).any IdentChar)

theorem identChar_alnum (c : Char) : IdentChar c = (isAlpha c || isDigit c || c == '_') := by
  simp [IdentChar, isAlpha, isDigit]

theorem tokens_flatten (s : Str) : (tokens s).flatten = s := by
  induction s with
  | nil => simp [tokens]
  | cons c cs ih =>
    simp only [tokens]
    split
    · rename_i d w ts h
      rw [h] at ih
      split <;> simp_all
    · simp [ih]

theorem tokens_head (c : Char) (cs : Str) : ∃ w ts, tokens (c :: cs) = (c :: w) :: ts := by
  simp only [tokens]
  split
  · split
    · exact ⟨_, _, rfl⟩
    · exact ⟨_, _, rfl⟩
  · exact ⟨_, _, rfl⟩

/-- One token at a time. -/
theorem tokens_cons {c : Char} {cs w : Str} {ts : List Str} (h : tokens (c :: cs) = (c :: w) :: ts) :
    ∃ rest, c :: cs = (c :: w) ++ rest ∧ tokens rest = ts ∧ (∀ x ∈ c :: w, IdentChar x = IdentChar c) ∧
      ∀ d, rest[0]? = some d → IdentChar d ≠ IdentChar c := by
  induction cs generalizing c w ts with
  | nil =>
    simp [tokens] at h
    obtain ⟨rfl, rfl⟩ := h
    exact ⟨[], by simp, by simp [tokens], by simp, by simp⟩
  | cons d ds ih =>
    obtain ⟨w', ts', hd⟩ := tokens_head d ds
    rw [tokens, hd] at h
    simp only at h
    split at h
    · rename_i hcd
      simp only [List.cons.injEq, true_and] at h
      obtain ⟨rfl, rfl⟩ := h
      obtain ⟨rest, h1, h2, h3, h4⟩ := ih hd
      refine ⟨rest, by rw [h1]; simp, h2, ?_, ?_⟩
      · intro x hx
        simp only [List.mem_cons] at hx h3
        rcases hx with rfl | hx
        · rfl
        · rw [hcd]; exact h3 x hx
      · intro e he; rw [hcd]; exact h4 e he
    · rename_i hcd
      simp only [List.cons.injEq, true_and] at h
      obtain ⟨rfl, rfl⟩ := h
      refine ⟨d :: ds, by simp, hd, by simp, ?_⟩
      intro e he; simp at he; subst he; exact fun e => hcd e.symm

/-- No `__Bool` and no `_Bool_` in the string: boundaries are decided by letters and digits alone. -/
def BoolPlain (s : Str) : Prop := ¬ c!"__Bool" <:+: s ∧ ¬ c!"_Bool_" <:+: s

theorem boolPlain_of_suffix {s t : Str} (h : BoolPlain s) (hs : t <:+ s) : BoolPlain t :=
  ⟨fun hi => h.1 (hi.trans hs.isInfix), fun hi => h.2 (hi.trans hs.isInfix)⟩

theorem fixBoolGo_skip_class {p : Option Char} (x s : Str)
    (h : ∀ j, j < x.length → boolMatch (lastOr p (x.take j)) ((x ++ s).drop j) = false) :
    fixBoolGo p 0 (x ++ s) = x ++ fixBoolGo (lastOr p x) 0 s := by
  induction x generalizing p with
  | nil => simp [lastOr]
  | cons c cs ih =>
    have h0 := h 0 (by simp)
    simp only [List.cons_append, List.drop_zero, List.take_zero] at h0 ⊢
    have : lastOr p [] = p := rfl
    rw [this] at h0
    rw [fixBoolGo_miss h0, ih, lastOr_cons]
    intro j hj
    have := h (j + 1) (by simpa using hj)
    rw [List.take_succ_cons, lastOr_cons] at this
    simpa using this

theorem getLast?_of_take {x : Str} {j : Nat} (hj : 0 < j) (hx : j ≤ x.length) : (x.take j).getLast? = x[j-1]? := by
  rw [List.getLast?_eq_getElem?]
  have : (x.take j).length = j := by simp [hx]
  rw [this, List.getElem?_take]
  simp [show j - 1 < j by omega]

theorem fixBool_tokens_aux : ∀ (n : Nat) (s pre : Str), s.length ≤ n → BoolPlain (pre ++ s) →
    (∀ c d, pre.getLast? = some c → s[0]? = some d → IdentChar c = IdentChar d → IdentChar c = false) →
    fixBoolGo pre.getLast? 0 s = replaceIdent boolName c!"bool" s := by
  intro n
  induction n with
  | zero =>
    intro s pre hs _ _
    have : s = [] := by cases s <;> simp_all
    subst this; simp [fixBoolGo, replaceIdent, tokens]
  | succ n ih =>
    intro s pre hs hplain hpre
    cases s with
    | nil => simp [fixBoolGo, replaceIdent, tokens]
    | cons c cs =>
      obtain ⟨w, ts, ht⟩ := tokens_head c cs
      obtain ⟨rest, h1, h2, h3, h4⟩ := tokens_cons ht
      have hrl : rest.length ≤ n := by
        have := congrArg List.length h1
        simp at this hs; omega
      have hrep : replaceIdent boolName c!"bool" (c :: cs) =
          (if c :: w = boolName then c!"bool" else c :: w) ++ replaceIdent boolName c!"bool" rest := by
        unfold replaceIdent; rw [ht, h2]; simp
      have hlastcls : ∀ x, (c :: w).getLast? = some x → IdentChar x = IdentChar c :=
        fun x hx => h3 x (List.mem_of_getLast? hx)
      rw [hrep, h1]
      by_cases htok : c :: w = boolName
      · rw [if_pos htok, htok]
        have hid : IdentChar c = true := by
          have : c = '_' := by simp [boolName] at htok; exact htok.1
          rw [this]; decide
        have hmatch : boolMatch pre.getLast? (boolName ++ rest) = true := by
          unfold boolMatch
          have hp : boolName.isPrefixOf (boolName ++ rest) = true := by
            rw [List.isPrefixOf_iff_prefix]; exact ⟨rest, rfl⟩
          rw [hp, Bool.true_and, Bool.and_eq_true]
          constructor
          · cases hl : pre.getLast? with
            | none => simp [alnumOpt]
            | some d =>
              have hd : IdentChar d = false := by
                cases hdd : IdentChar d with
                | false => rfl
                | true =>
                  have := hpre d c hl (by simp) (by rw [hdd, hid])
                  rw [hdd] at this; cases this
              rw [identChar_alnum] at hd
              simp [alnumOpt] at hd ⊢
              exact hd.1
          · have e2 : (boolName ++ rest)[boolName.length]? = rest[0]? := by
              rw [List.getElem?_append_right (by omega)]; congr 1
            rw [e2]
            cases hr : rest[0]? with
            | none => simp [alnumOpt]
            | some d =>
              have hd := h4 d hr
              rw [hid] at hd
              have hd' : IdentChar d = false := by simpa using hd
              rw [identChar_alnum] at hd'
              simp [alnumOpt] at hd' ⊢
              exact hd'.1
        rw [fixBoolGo_hit hmatch]
        congr 1
        have := ih rest (pre ++ (c :: w)) hrl (by rw [List.append_assoc, ← h1]; exact hplain) (by
          intro a b ha hb hab
          have : IdentChar a = IdentChar c := hlastcls a (by simpa using ha)
          have hbc := h4 b hb
          rw [← hab, this] at hbc
          exact absurd rfl hbc)
        rw [htok] at this
        have hl : (pre ++ boolName).getLast? = some 'l' := by simp [boolName]
        rw [hl] at this
        exact this
      · rw [if_neg htok]
        rw [fixBoolGo_skip_class (c :: w) rest]
        · rw [lastOr_append]
          congr 1
          apply ih rest (pre ++ (c :: w)) hrl (by rw [List.append_assoc, ← h1]; exact hplain)
          intro a b ha hb hab
          have : IdentChar a = IdentChar c := hlastcls a (by simpa using ha)
          have hbc := h4 b hb
          rw [← hab, this] at hbc
          exact absurd rfl hbc
        · intro j hj
          cases hm : boolMatch (lastOr pre.getLast? ((c :: w).take j)) ((c :: w ++ rest).drop j) with
          | false => rfl
          | true =>
            exfalso
            obtain ⟨r, hr⟩ := boolMatch_prefix hm
            have hdrop : (c :: w ++ rest).drop j = (c :: w).drop j ++ rest := by
              rw [List.drop_append_of_le_length (by omega)]
            have hcj : IdentChar c = true := by
              have hmem : (c :: w)[j]? = some '_' := by
                have : ((c :: w).drop j ++ rest)[0]? = some '_' := by rw [← hdrop, hr]; simp [boolName]
                rw [List.getElem?_append_left (by simp at hj ⊢; omega)] at this
                simpa using this
              have := h3 '_' (List.mem_of_getElem? hmem)
              rw [← this]; decide
            cases j with
            | zero =>
              -- prefix at the start of the token: the token is `_Bool` itself
              simp only [List.drop_zero] at hr hm
              have hall : ∀ x ∈ boolName, IdentChar x = true := by decide
              by_cases hlen : (c :: w).length < boolName.length
              · -- the token would go on
                have hx : rest[0]? = boolName[(c :: w).length]? := by
                  have : (c :: w ++ rest)[(c :: w).length]? = rest[0]? := by
                    rw [List.getElem?_append_right (by omega)]; congr 1; omega
                  rw [← this, hr, List.getElem?_append_left hlen]
                cases hb : boolName[(c :: w).length]? with
                | none => simp at hb; simp at hlen; omega
                | some d =>
                  have h5 := h4 d (by rw [hx, hb])
                  rw [hcj] at h5
                  exact h5 (hall d (List.mem_of_getElem? hb))
              · by_cases heq : (c :: w).length = boolName.length
                · apply htok
                  have := congrArg (List.take (c :: w).length) hr
                  rw [List.take_left', heq, List.take_left'] at this
                  · exact this
                  · rfl
                  · rfl
                · -- next character is in the token
                  have hgt : boolName.length < (c :: w).length := by omega
                  obtain ⟨d, hd⟩ : ∃ d, (c :: w)[boolName.length]? = some d := by
                    exact ⟨_, List.getElem?_eq_getElem hgt⟩
                  have hnext : (c :: w ++ rest)[boolName.length]? = some d := by
                    rw [List.getElem?_append_left hgt, hd]
                  have hdi : IdentChar d = true := by rw [h3 d (List.mem_of_getElem? hd), hcj]
                  simp only [boolMatch, Bool.and_eq_true] at hm
                  have hna := hm.2
                  rw [hnext] at hna
                  have hu : d = '_' := by
                    rw [identChar_alnum] at hdi
                    simp [alnumOpt] at hna hdi
                    rcases hdi with hdi | hdi
                    · rcases hdi with h | h
                      · rw [hna.1] at h; cases h
                      · rw [hna.2] at h; cases h
                    · exact hdi
                  apply hplain.2
                  have hr2 : r[0]? = some '_' := by
                    rw [hr, List.getElem?_append_right (by omega)] at hnext
                    simpa [hu] using hnext
                  obtain ⟨r', rfl⟩ : ∃ r', r = '_' :: r' := by
                    cases r with
                    | nil => simp at hr2
                    | cons a b => simp at hr2; exact ⟨b, by rw [hr2]⟩
                  refine ⟨pre, r', ?_⟩
                  rw [h1, hr]; simp [boolName]
            | succ j =>
              -- the previous character is in the token
              obtain ⟨d, hd⟩ : ∃ d, (c :: w)[j]? = some d := ⟨_, List.getElem?_eq_getElem (by omega)⟩
              have hlast : lastOr pre.getLast? ((c :: w).take (j + 1)) = some d := by
                unfold lastOr
                rw [getLast?_of_take (by omega) (by omega)]
                simp [hd]
              rw [hlast] at hm
              have hdi : IdentChar d = true := by rw [h3 d (List.mem_of_getElem? hd), hcj]
              simp only [boolMatch, Bool.and_eq_true] at hm
              have hna := hm.1.2
              have hu : d = '_' := by
                rw [identChar_alnum] at hdi
                simp [alnumOpt] at hna hdi
                rcases hdi with hdi | hdi
                · rcases hdi with h | h
                  · rw [hna.1] at h; cases h
                  · rw [hna.2] at h; cases h
                · exact hdi
              apply hplain.1
              have hsplit : c :: w ++ rest = (c :: w).take j ++ d :: (c :: w ++ rest).drop (j + 1) := by
                have hj' : j < (c :: w ++ rest).length := by simp at hj ⊢; omega
                have e : (c :: w ++ rest)[j]? = some d := by rw [List.getElem?_append_left (by omega), hd]
                have e2 : (c :: w ++ rest)[j] = d := by
                  rw [List.getElem?_eq_getElem hj'] at e; exact Option.some.inj e
                have e3 := List.take_append_drop j (c :: w ++ rest)
                rw [List.drop_eq_getElem_cons hj', e2, List.take_append_of_le_length (by omega)] at e3
                exact e3.symm
              refine ⟨pre ++ (c :: w).take j, r, ?_⟩
              rw [h1, hsplit, hr, hu]
              simp [boolName]

end Binder
