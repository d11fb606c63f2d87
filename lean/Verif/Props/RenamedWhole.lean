import Verif.Props.Renamed

/-!
# C119: only whole names are replaced
-/

namespace Binder

open Spec

theorem Spec.RenamedWhole.trans {s t u : Str} (h : RenamedWhole s t) (h' : RenamedWhole t u) : RenamedWhole s u := by
  induction h with
  | same => exact h'
  | step a b h hw _ ih => exact .step a b h hw (ih h')

theorem Spec.RenamedWhole.one {full short : Str} (a b : Str) (h : Respelled full short) (hw : Whole a full b) :
    RenamedWhole (a ++ full ++ b) (a ++ short ++ b) := .step a b h hw (.same _)

/-- `w` and `S` cannot overlap, except that they begin at the same place. -/
def NoOverlap (w S : Str) : Prop :=
  (∀ j, j < S.length → 0 < j → ¬ OverBool (S.drop j) w) ∧ ∀ i, i < w.length → 0 < i → ¬ OverBool (w.drop i) S

instance (w S : Str) : Decidable (NoOverlap w S) := inferInstanceAs (Decidable (_ ∧ _))

/-- Where a word lies in a text of three parts. -/
theorem occurs_cases {a w b x S y : Str} (hw : w ≠ []) (hn : NoOverlap w S) (e : a ++ w ++ b = x ++ S ++ y) :
    (∃ r, x = a ++ w ++ r ∧ b = r ++ S ++ y) ∨ (∃ r, y = r ++ w ++ b ∧ a = x ++ S ++ r) ∨ (a = x ∧ OverBool S w) := by
  have hpos : 0 < w.length := List.length_pos_iff.2 hw
  simp only [List.append_assoc] at e
  rcases List.append_eq_append_iff.1 e with ⟨r, hx, h1⟩ | ⟨r, ha, h1⟩
  · -- `x = a ++ r`
    rcases List.append_eq_append_iff.1 h1 with ⟨q, hr, h2⟩ | ⟨q, hwq, h2⟩
    · exact .inl ⟨q, by rw [hx, hr, List.append_assoc], by rw [h2, List.append_assoc]⟩
    · by_cases hr0 : r.length = 0
      · have hr0' : r = [] := List.length_eq_zero_iff.1 hr0
        subst hr0'
        refine .inr (.inr ⟨by simpa using hx.symm, ?_⟩)
        have : w = q := by simpa using hwq
        subst this
        exact prefix_or (c := S ++ y) (List.prefix_append _ _) (h2 ▸ List.prefix_append _ _)
      · by_cases hq0 : q = []
        · subst hq0
          exact .inl ⟨[], by rw [hx, hwq]; simp, by simpa using h2.symm⟩
        · have hq : w.drop r.length = q := by rw [hwq, List.drop_left]
          have hl := congrArg List.length hwq
          have hqp : 0 < q.length := List.length_pos_iff.2 hq0
          rw [List.length_append] at hl
          refine absurd ?_ (hn.2 r.length (by omega) (by omega))
          rw [hq]
          exact prefix_or (c := S ++ y) (h2 ▸ List.prefix_append _ _) (List.prefix_append _ _)
  · -- `a = x ++ r`
    rcases List.append_eq_append_iff.1 h1 with ⟨q, hr, h2⟩ | ⟨q, hSq, h2⟩
    · exact .inr (.inl ⟨q, by rw [h2, List.append_assoc], by rw [ha, hr, List.append_assoc]⟩)
    · by_cases hr0 : r = []
      · subst hr0
        refine .inr (.inr ⟨by simpa using ha, ?_⟩)
        have : S = q := by simpa using hSq
        subst this
        exact prefix_or (c := w ++ b) (h2 ▸ List.prefix_append _ _) (List.prefix_append _ _)
      · by_cases hq0 : q = []
        · subst hq0
          exact .inr (.inl ⟨[], by simpa using h2.symm, by rw [ha, hSq]; simp⟩)
        · have hq : S.drop r.length = q := by rw [hSq, List.drop_left]
          have hl := congrArg List.length hSq
          have hqp : 0 < q.length := List.length_pos_iff.2 hq0
          have hrp : 0 < r.length := List.length_pos_iff.2 hr0
          rw [List.length_append] at hl
          refine absurd ?_ (hn.1 r.length (by omega) hrp)
          rw [hq]
          exact prefix_or (c := w ++ b) (h2 ▸ List.prefix_append _ _) (List.prefix_append _ _)

theorem getLast?_of_ne {x r : Str} (h : r ≠ []) : (x ++ r).getLast? = r.getLast? := by
  obtain ⟨c, hc⟩ := Option.ne_none_iff_exists'.1 (mt List.getLast?_eq_none_iff.1 h)
  rw [List.getLast?_append, hc]
  rfl

theorem head?_of_ne {x r : Str} (h : r ≠ []) : (r ++ x).head? = r.head? := by
  cases r with
  | nil => contradiction
  | cons c r => rfl

/-- The words that `Printed` is about. -/
def printedWords : List Str := [c!"std::", c!"class ", c!">", c!"__thread_id"]

/-- What the rows of the table look like, except that of `nullptr_t`. -/
structure Row (L S : Str) : Prop where
  begins : c!"std::" <+: L ∨ c!"class " <+: L
  letter : ∃ c, L.head? = some c ∧ Spec.letter c = true
  nonempty : S ≠ []
  ends : L.getLast? = some '>' ∨ (L.getLast? = some ':' ∧ S.getLast? = some ':') ∨ ∃ c, L.getLast? = some c ∧ Spec.letter c = true
  apart : ∀ w ∈ printedWords, NoOverlap w S
  only : ∀ w ∈ printedWords, w = c!"std::" ∨ ¬ OverBool S w

theorem nameMap_row : ∀ p ∈ nameMap, p.1 = c!"nullptr_t" ∨ Row p.1 p.2 := by
  have h : ∀ p ∈ nameMap, p.1 = c!"nullptr_t" ∨ ((c!"std::" <+: p.1 ∨ c!"class " <+: p.1) ∧ (p.1.head?.any Spec.letter = true) ∧ p.2 ≠ [] ∧
      (p.1.getLast? = some '>' ∨ (p.1.getLast? = some ':' ∧ p.2.getLast? = some ':') ∨ p.1.getLast?.any Spec.letter = true) ∧
      (∀ w ∈ printedWords, NoOverlap w p.2) ∧ ∀ w ∈ printedWords, w = c!"std::" ∨ ¬ OverBool p.2 w) := by
    decide +kernel
  have any {o : Option Char} (h : o.any Spec.letter = true) : ∃ c, o = some c ∧ Spec.letter c = true := by
    cases o with
    | none => simp at h
    | some c => exact ⟨c, rfl, h⟩
  intro p hp
  rcases h p hp with h | ⟨h1, h2, h3, h4, h5, h6⟩
  · exact .inl h
  · exact .inr ⟨h1, any h2, h3, h4.imp_right (Or.imp_right any), h5, h6⟩

/-- A row of the table keeps names as clang prints them. -/
theorem Row.printed {L S x y : Str} (hr : Row L S) (h : Printed (x ++ L ++ y)) : Printed (x ++ S ++ y) := by
  have hL : L ≠ [] := by
    obtain ⟨c, hc, -⟩ := hr.letter
    rintro rfl
    cases hc
  have endx : NoLetterAtEnd x := by
    rcases hr.begins with ⟨q, rfl⟩ | ⟨q, rfl⟩
    · exact h.std x (q ++ y) (by simp only [List.append_assoc])
    · exact h.kind x (q ++ y) (by simp only [List.append_assoc])
  -- a word in the last part that begins with a letter
  have after {w r b : Str} (hw : ∃ c, w.head? = some c ∧ Spec.letter c = true) (hy : y = r ++ w ++ b)
      (hend : NoLetterAtEnd (x ++ L ++ r)) : NoLetterAtEnd (x ++ S ++ r) := by
    by_cases h0 : r = []
    · subst h0
      intro c hc
      rw [List.append_nil, getLast?_of_ne hr.nonempty] at hc
      rcases hr.ends with h1 | ⟨h1, h2⟩ | ⟨d, h1, h2⟩
      · obtain ⟨d, hd, hd'⟩ := hw
        obtain ⟨q, rfl⟩ := List.getLast?_eq_some_iff.1 h1
        have := h.close (x ++ q) y (by simp only [List.append_assoc]) d (by
          rw [hy]
          cases w with
          | nil => cases hd
          | cons e w => simpa using hd)
        rw [hd'] at this
        cases this
      · rw [h2] at hc
        cases hc
        decide
      · have := hend d (by rw [List.append_nil, getLast?_of_ne hL, h1])
        rw [h2] at this
        cases this
    · intro c hc
      rw [getLast?_of_ne h0] at hc
      exact hend c (by rw [getLast?_of_ne h0]; exact hc)
  -- a word in the first part after which no letter comes
  have before {a r : Str} (hst : NoLetterAtStart (r ++ L ++ y)) : NoLetterAtStart (r ++ S ++ y) := by
    by_cases h0 : r = []
    · subst h0
      obtain ⟨c, hc, hc'⟩ := hr.letter
      have := hst c (by rw [List.nil_append, head?_of_ne hL, hc])
      rw [hc'] at this
      cases this
    · intro c hc
      rw [List.append_assoc, head?_of_ne h0] at hc
      exact hst c (by rw [List.append_assoc, head?_of_ne h0]; exact hc)
  refine ⟨fun a b e => ?_, fun a b e => ?_, fun a b e => ?_, fun a b e => ?_⟩
  · rcases occurs_cases (by decide) (hr.apart c!"std::" (by decide)) e.symm with ⟨r, hx, hb⟩ | ⟨r, hy, ha⟩ | ⟨rfl, -⟩
    · exact h.std a (r ++ L ++ y) (by rw [hx]; simp only [List.append_assoc])
    · rw [ha]
      exact after ⟨'s', rfl, by decide⟩ hy (h.std _ b (by rw [hy]; simp only [List.append_assoc]))
    · exact endx
  · rcases occurs_cases (by decide) (hr.apart c!"class " (by decide)) e.symm with ⟨r, hx, hb⟩ | ⟨r, hy, ha⟩ | ⟨-, h2⟩
    · exact h.kind a (r ++ L ++ y) (by rw [hx]; simp only [List.append_assoc])
    · rw [ha]
      exact after ⟨'c', rfl, by decide⟩ hy (h.kind _ b (by rw [hy]; simp only [List.append_assoc]))
    · exact absurd h2 ((hr.only c!"class " (by decide)).resolve_left (by decide))
  · rcases occurs_cases (by decide) (hr.apart c!">" (by decide)) e.symm with ⟨r, hx, hb⟩ | ⟨r, hy, ha⟩ | ⟨-, h2⟩
    · rw [hb]
      exact before (a := a) (h.close a (r ++ L ++ y) (by rw [hx]; simp only [List.append_assoc]))
    · exact h.close (x ++ L ++ r) b (by rw [hy]; simp only [List.append_assoc])
    · exact absurd h2 ((hr.only c!">" (by decide)).resolve_left (by decide))
  · rcases occurs_cases (by decide) (hr.apart c!"__thread_id" (by decide)) e.symm with ⟨r, hx, hb⟩ | ⟨r, hy, ha⟩ | ⟨-, h2⟩
    · rw [hb]
      exact before (a := a) (h.thread a (r ++ L ++ y) (by rw [hx]; simp only [List.append_assoc]))
    · exact h.thread (x ++ L ++ r) b (by rw [hy]; simp only [List.append_assoc])
    · exact absurd h2 ((hr.only c!"__thread_id" (by decide)).resolve_left (by decide))

/-- The name before and after a replacement are two ways to write the same, of a whole name. -/
theorem nameMap_whole : ∀ p ∈ nameMap, p.1 = c!"nullptr_t" ∨ ∀ a b, Printed (a ++ p.1 ++ b) → RenamedWhole (a ++ p.1 ++ b) (a ++ p.2 ++ b) := by
  -- a text that begins like a word of the standard library
  have left {w L a b : Str} (hw : w = c!"std::" ∨ w = c!"class ") (hL : w <+: L) (h : Printed (a ++ L ++ b)) : NoLetterAtEnd a := by
    obtain ⟨q, rfl⟩ := hL
    rcases hw with rfl | rfl
    · exact h.std a (q ++ b) (by simp only [List.append_assoc])
    · exact h.kind a (q ++ b) (by simp only [List.append_assoc])
  -- one that ends in no letter
  have sign {L a b : Str} (ha : NoLetterAtEnd a) (hL : L.getLast?.any Spec.letter = false) : Whole a L b :=
    ⟨fun _ => ha, fun ⟨c, h1, h2⟩ => by rw [h1] at hL; simp [h2] at hL⟩
  have td {n f : Str} (h : (n, f) ∈ standardTypedefs) (hs : c!"std::" <+: f) (hl : f.getLast?.any Spec.letter = false) (a b : Str)
      (hp : Printed (a ++ f ++ b)) : RenamedWhole (a ++ f ++ b) (a ++ n ++ b) := .one a b (.typedef n f h) (sign (left (.inl rfl) hs hp) hl)
  have cls (a b : Str) (ha : NoLetterAtEnd a) : RenamedWhole (a ++ c!"class std::" ++ b) (a ++ c!"std::" ++ b) :=
    .one a b (.kind c!"class " (by decide)) (sign ha (by decide))
  have str (a b : Str) (ha : NoLetterAtEnd a) : RenamedWhole (a ++ c!"struct std::" ++ b) (a ++ c!"std::" ++ b) :=
    .one a b (.kind c!"struct " (by decide)) (sign ha (by decide))
  have blank (v : Str) : NoLetterAtEnd (v ++ c!" ") := by
    intro c hc
    rw [getLast?_of_ne (by decide)] at hc
    cases hc
    decide
  have thread (a b : Str) (ha : NoLetterAtEnd a) (hb : NoLetterAtStart b) :
      RenamedWhole (a ++ c!"std::__thread_id" ++ b) (a ++ c!"std::thread::id" ++ b) :=
    .one a b (.typedef c!"std::thread::id" c!"std::__thread_id" (by decide +kernel)) ⟨fun _ => ha, fun _ => hb⟩
  have named (w : Str) (a b : Str) (hp : Printed (a ++ (c!"class std::" ++ w) ++ b)) :
      RenamedWhole (a ++ (c!"class std::" ++ w) ++ b) (a ++ (c!"std::" ++ w) ++ b) := by
    have := cls a (w ++ b) (left (.inr rfl) ⟨c!"std::" ++ w, rfl⟩ hp)
    simpa only [List.append_assoc] using this
  intro p hp
  simp only [nameMap, List.mem_cons, List.not_mem_nil, or_false] at hp
  rcases hp with rfl | rfl | rfl | rfl | rfl | rfl | rfl | rfl | rfl | rfl | rfl | rfl | rfl
  · exact .inr fun a b h => .one a b (.inline c!"__1" (by decide)) (sign (left (.inl rfl) (by decide) h) (by decide))
  · exact .inr fun a b h => .one a b (.inline c!"__cxx11" (by decide)) (sign (left (.inl rfl) (by decide) h) (by decide))
  · exact .inr (td (by decide +kernel) (by decide) (by decide))
  · exact .inr (td (by decide +kernel) (by decide) (by decide +kernel))
  · refine .inr fun a b h => ?_
    have ha := left (.inr rfl) (by decide) h
    have h1 := named c!"basic_string<char, struct std::char_traits<char>, class std::allocator<char> >" a b h
    have h2 := str (a ++ c!"std::basic_string<char," ++ c!" ") (c!"char_traits<char>, class std::allocator<char> >" ++ b) (blank _)
    have h3 := cls (a ++ c!"std::basic_string<char, std::char_traits<char>," ++ c!" ") (c!"allocator<char> >" ++ b) (blank _)
    have h4 : RenamedWhole (a ++ c!"std::basic_string<char, std::char_traits<char>, std::allocator<char> >" ++ b) (a ++ c!"std::string" ++ b) :=
      .one a b (.typedef c!"std::string" c!"std::basic_string<char, std::char_traits<char>, std::allocator<char> >" (by decide +kernel))
        (sign ha (by decide +kernel))
    simp only [List.append_assoc] at h1 h2 h3 h4 ⊢
    exact h1.trans (h2.trans (h3.trans h4))
  · exact .inr (td (by decide +kernel) (by decide) (by decide))
  · exact .inr (td (by decide +kernel) (by decide) (by decide))
  · exact .inr (named c!"string")
  · exact .inr (named c!"ostream")
  · exact .inr (named c!"istream")
  · refine .inr fun a b h => ?_
    have ha := left (.inr rfl) (by decide) h
    have hb := h.thread (a ++ c!"class std::") b (by simp only [List.append_assoc]; rfl)
    exact (named c!"__thread_id" a b h).trans (thread a b ha hb)
  · refine .inr fun a b h => ?_
    exact thread a b (left (.inl rfl) (by decide) h) (h.thread (a ++ c!"std::") b (by simp only [List.append_assoc]; rfl))
  · exact .inl rfl

/-- The replacements of `standard_name` replace whole names. -/
theorem applyNameMap_whole {s : Str} (hp : Printed s) (hn : ¬ c!"nullptr_t" <:+: s) (hb : ¬ c!"_Bool" <:+: s) :
    RenamedWhole s (applyNameMap s) ∧ ¬ c!"_Bool" <:+: applyNameMap s := by
  have apart : ∀ p ∈ nameMap, p.1 ≠ [] ∧ ∀ w ∈ [c!"nullptr_t", c!"_Bool"], p.1 = c!"nullptr_t" ∨ WordApart w p.2 := by
    decide +kernel
  have key : ∀ (m : List (Str × Str)), (∀ p ∈ m, p ∈ nameMap) → ∀ t, (RenamedWhole s t ∧ Printed t ∧ ∀ w ∈ [c!"nullptr_t", c!"_Bool"], ¬ w <:+: t) →
      (RenamedWhole s (m.foldl (fun r p => replaceAll r p.1 p.2) t) ∧ Printed (m.foldl (fun r p => replaceAll r p.1 p.2) t) ∧
        ∀ w ∈ [c!"nullptr_t", c!"_Bool"], ¬ w <:+: m.foldl (fun r p => replaceAll r p.1 p.2) t) := by
    intro m
    induction m with
    | nil => exact fun _ t h => h
    | cons p m ih =>
      intro hm t ht
      refine ih (fun q hq => hm q (List.mem_cons_of_mem _ hq)) _ ?_
      have hp := hm p List.mem_cons_self
      have := replaceGo_holds (P := fun t => RenamedWhole s t ∧ Printed t ∧ ∀ w ∈ [c!"nullptr_t", c!"_Bool"], ¬ w <:+: t) (frm := p.1) (to := p.2)
        (apart p hp).1 ?_ t.length t [] (Nat.le_refl _) ht
      · exact this
      · rintro a b ⟨h1, h3, h2⟩
        have hno : p.1 ≠ c!"nullptr_t" := fun e => h2 _ List.mem_cons_self ⟨a, b, by rw [e]⟩
        refine ⟨h1.trans ((nameMap_whole p hp).resolve_left hno a b h3), ((nameMap_row p hp).resolve_left hno).printed h3, fun w hw hi => ?_⟩
        rcases infix_apart (((apart p hp).2 w hw).resolve_left hno) hi with h3 | h3
        · exact h2 w hw (h3.trans ⟨[], p.1 ++ b, by simp⟩)
        · exact h2 w hw (h3.trans ⟨a ++ p.1, [], by simp⟩)
  obtain ⟨h1, -, h2⟩ := key nameMap (fun _ h => h) s ⟨.same s, hp, by
    intro w h
    simp only [List.mem_cons, List.not_mem_nil, or_false] at h
    rcases h with rfl | rfl <;> assumption⟩
  exact ⟨h1, h2 _ (by simp)⟩

/-- **C119, part.** In a name as clang prints it, before the short names for containers are put in, only whole names have been replaced, each
by another name of the same thing. Missing: `nullptr_t` and texts with longer words, see `C119_nullptr_false` and `C119_word_false`; the
containers, see C77. -/
theorem C119_whole_partial (s : Str) (hp : Printed s) (hn : ¬ c!"nullptr_t" <:+: s) (hb : ¬ c!"_Bool" <:+: s) :
    RenamedWhole s (standardName id s) := by
  obtain ⟨h, hx⟩ := applyNameMap_whole hp hn hb
  unfold standardName
  generalize applyNameMap s = r at h hx
  have e : (if beginsWith r c!"std::" then c!"std::" ++ id (r.drop 5) else r) = r := by
    split
    · rename_i hb
      obtain ⟨x, rfl⟩ := (C58_begins_with _ _).1 hb
      rfl
    · rfl
  have f : fixBooleanTypes r = r := by
    have := fixBoolGo_skip (p := none) r [] fun j hj => by
      rw [List.append_nil]
      exact not_infix_iff.1 hx j (Nat.le_of_lt hj)
    simpa [fixBooleanTypes, fixBoolGo] using this
  simp only [e, f]
  exact h

/-- To check `Printed` it is enough to look at each position. -/
def printedBool (s : Str) : Bool :=
  (List.range (s.length + 1)).all fun j =>
    (!(c!"std::".isPrefixOf (s.drop j) || c!"class ".isPrefixOf (s.drop j)) || !((s.take j).getLast?.any Spec.letter)) &&
    (!(c!">".isPrefixOf (s.drop j)) || !((s.drop (j + 1)).head?.any Spec.letter)) &&
    (!(c!"__thread_id".isPrefixOf (s.drop j)) || !((s.drop (j + 11)).head?.any Spec.letter))

theorem printed_of_bool {s : Str} (h : printedBool s = true) : Printed s := by
  have key (a w b : Str) (e : s = a ++ w ++ b) : a.length ∈ List.range (s.length + 1) ∧ s.drop a.length = w ++ b ∧ s.take a.length = a ∧
      s.drop (a.length + w.length) = b := by
    subst e
    refine ⟨List.mem_range.2 (by simp only [List.length_append]; omega), by rw [List.append_assoc, List.drop_left],
      by rw [List.append_assoc, List.take_left], by rw [← List.length_append, List.drop_left]⟩
  have no {o : Option Char} (h : (!(o.any Spec.letter)) = true) (c : Char) (hc : o = some c) : Spec.letter c = false := by
    subst hc
    simpa using h
  have pre (w b : Str) : w.isPrefixOf (w ++ b) = true := List.isPrefixOf_iff_prefix.2 (List.prefix_append _ _)
  unfold printedBool at h
  rw [List.all_eq_true] at h
  refine ⟨fun a b e => ?_, fun a b e => ?_, fun a b e => ?_, fun a b e => ?_⟩
  all_goals
    obtain ⟨h1, h2, h3, h4⟩ := key a _ b e
    have h5 := h _ h1
    rw [Bool.and_eq_true, Bool.and_eq_true, h2, h3] at h5
    obtain ⟨⟨h6, h7⟩, h8⟩ := h5
  · rw [pre, Bool.true_or, Bool.not_true, Bool.false_or] at h6
    exact fun c hc => no h6 c hc
  · rw [pre, Bool.or_true, Bool.not_true, Bool.false_or] at h6
    exact fun c hc => no h6 c hc
  · rw [pre, Bool.not_true, Bool.false_or] at h7
    have h4' : s.drop (a.length + 1) = b := h4
    rw [h4'] at h7
    exact fun c hc => no h7 c hc
  · rw [pre, Bool.not_true, Bool.false_or] at h8
    have h4' : s.drop (a.length + 11) = b := h4
    rw [h4'] at h8
    exact fun c hc => no h8 c hc

/-- The hypotheses of `C119_whole_partial` are met. -/
example : Printed c!"const class ns::Pair<class std::__1::basic_string<char>, class std::__thread_id> &" ∧
    ¬ c!"nullptr_t" <:+: c!"const class ns::Pair<class std::__1::basic_string<char>, class std::__thread_id> &" ∧
    ¬ c!"_Bool" <:+: c!"const class ns::Pair<class std::__1::basic_string<char>, class std::__thread_id> &" ∧
    standardName id c!"const class ns::Pair<class std::__1::basic_string<char>, class std::__thread_id> &" =
      c!"const class ns::Pair<std::string, std::thread::id> &" :=
  ⟨printed_of_bool (by decide +kernel), not_infix_iff.2 (by decide +kernel), not_infix_iff.2 (by decide +kernel), by decide +kernel⟩

end Binder
