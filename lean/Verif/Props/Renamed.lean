import Verif.Spec.Renamed
import Verif.Lemmas.Standard
import Verif.Props.Simplify

/-!
# C119: a normalised name names the same type
-/

namespace Binder

open Spec

theorem Spec.Renamed.trans {s t u : Str} (h : Renamed s t) (h' : Renamed t u) : Renamed s u := by
  induction h with
  | same => exact h'
  | step a b h _ ih => exact .step a b h (ih h')

theorem Spec.Renamed.one {full short : Str} (a b : Str) (h : Respelled full short) : Renamed (a ++ full ++ b) (a ++ short ++ b) :=
  .step a b h (.same _)

/-- The word neither begins nor ends within `w`, nor lies around it. -/
def WordApart (p w : Str) : Prop :=
  (∀ j, j < w.length → ¬ OverBool (w.drop j) p) ∧ ∀ i, i < p.length → ¬ OverBool (p.drop i) w

instance (p w : Str) : Decidable (WordApart p w) := inferInstanceAs (Decidable (_ ∧ _))

theorem infix_apart {p w a b : Str} (h : WordApart p w) (hi : p <:+: a ++ w ++ b) : p <:+: a ∨ p <:+: b := by
  rw [List.append_assoc] at hi
  rcases infix_append_cases hi with ⟨j, hj, h1⟩ | h1
  · by_cases hl : p.length ≤ (a.drop j).length
    · exact .inl ((List.prefix_of_prefix_length_le h1 (List.prefix_append _ _) hl).isInfix.trans (List.drop_suffix j a).isInfix)
    · obtain ⟨r, hr⟩ := h1
      have h2 : p.drop (a.drop j).length ++ r = w ++ b := by
        have := congrArg (List.drop (a.drop j).length) hr
        rwa [List.drop_append_of_le_length (by omega), List.drop_left] at this
      exact absurd (prefix_or ⟨r, h2⟩ (List.prefix_append _ _)) (h.2 _ (by omega))
  · rcases infix_append_cases h1 with ⟨j, hj, h2⟩ | h2
    · exact absurd (prefix_or (List.prefix_append _ _) h2) (h.1 j hj)
    · exact .inr h2

/-- What one replacement keeps, replacing all occurrences keeps. -/
theorem replaceGo_holds {P : Str → Prop} {frm to : Str} (hne : frm ≠ []) (step : ∀ a b, P (a ++ frm ++ b) → P (a ++ to ++ b)) :
    ∀ (n : Nat) (s pre : Str), s.length ≤ n → P (pre ++ s) → P (pre ++ replaceGo frm to 0 s)
  | 0, s, pre, hl, h => by
    cases s with
    | nil => simpa [replaceGo] using h
    | cons c s => simp at hl
  | n + 1, s, pre, hl, h => by
    by_cases hp : frm <+: s
    · obtain ⟨r, rfl⟩ := hp
      have hpos : 0 < frm.length := List.length_pos_iff.2 hne
      rw [replaceGo_hit hne, ← List.append_assoc]
      refine replaceGo_holds hne step n r _ ?_ (step pre r (by rwa [List.append_assoc]))
      rw [List.length_append] at hl
      omega
    · cases s with
      | nil => simpa [replaceGo] using h
      | cons c s =>
        rw [replaceGo_miss hp]
        have := replaceGo_holds hne step n s (pre ++ [c]) (by simpa using hl) (by simpa using h)
        simpa using this

/-- What writing `bool` for one `_Bool` keeps, `fix_boolean_types` keeps. -/
theorem fixBoolGo_holds {P : Str → Prop} (step : ∀ a b, P (a ++ boolName ++ b) → P (a ++ c!"bool" ++ b)) :
    ∀ (n : Nat) (s : Str) (q : Option Char) (pre : Str), s.length ≤ n → P (pre ++ s) → P (pre ++ fixBoolGo q 0 s)
  | 0, s, q, pre, hl, h => by
    cases s with
    | nil => simpa [fixBoolGo] using h
    | cons c s => simp at hl
  | n + 1, [], q, pre, hl, h => by simpa [fixBoolGo] using h
  | n + 1, c :: s, q, pre, hl, h => by
    rw [fixBoolGo]
    split
    · rename_i hc
      have hp : boolName <+: c :: s := by
        simp only [Bool.and_eq_true] at hc
        exact List.isPrefixOf_iff_prefix.1 hc.1.1
      obtain ⟨r, hr⟩ := hp
      have hs : s.drop (boolName.length - 1) = r := by
        have := congrArg (List.drop boolName.length) hr
        rw [List.drop_left] at this
        simpa [boolName] using this.symm
      rw [fixBoolGo_eq_drop, hs, ← List.append_assoc]
      refine fixBoolGo_holds step n r _ _ ?_ (step pre r (by rw [List.append_assoc, hr]; exact h))
      have := congrArg List.length hr
      rw [List.length_append] at this
      simp [boolName] at this
      simp at hl
      omega
    · have := fixBoolGo_holds step n s (some c) (pre ++ [c]) (by simpa using hl) (by simpa using h)
      simpa using this

/-- A row of the table writes a type in another way, or is that of `nullptr_t`. -/
theorem nameMap_renamed : ∀ p ∈ nameMap, p.1 = c!"nullptr_t" ∨ ∀ a b, Renamed (a ++ p.1 ++ b) (a ++ p.2 ++ b) := by
  have td {n f : Str} (h : (n, f) ∈ standardTypedefs) (a b : Str) : Renamed (a ++ f ++ b) (a ++ n ++ b) := .one a b (.typedef n f h)
  have cut {x y w : Str} (h : ∀ a b, Renamed (a ++ x ++ b) (a ++ y ++ b)) (a b : Str) : Renamed (a ++ (x ++ w) ++ b) (a ++ (y ++ w) ++ b) := by
    have := h a (w ++ b)
    simpa only [List.append_assoc] using this
  have cutl {x y v : Str} (h : ∀ a b, Renamed (a ++ x ++ b) (a ++ y ++ b)) (a b : Str) : Renamed (a ++ (v ++ x) ++ b) (a ++ (v ++ y) ++ b) := by
    have := h (a ++ v) b
    simpa only [List.append_assoc] using this
  have cls (a b : Str) : Renamed (a ++ c!"class std::" ++ b) (a ++ c!"std::" ++ b) := .one a b (.kind c!"class " (by decide))
  have str (a b : Str) : Renamed (a ++ c!"struct std::" ++ b) (a ++ c!"std::" ++ b) := .one a b (.kind c!"struct " (by decide))
  intro p hp
  simp only [nameMap, List.mem_cons, List.not_mem_nil, or_false] at hp
  rcases hp with rfl | rfl | rfl | rfl | rfl | rfl | rfl | rfl | rfl | rfl | rfl | rfl | rfl
  · exact .inr fun a b => .one a b (.inline c!"__1" (by decide))
  · exact .inr fun a b => .one a b (.inline c!"__cxx11" (by decide))
  · exact .inr (td (by decide +kernel))
  · exact .inr (td (by decide +kernel))
  · refine .inr fun a b => ?_
    refine (cut (w := c!"basic_string<char, struct std::char_traits<char>, class std::allocator<char> >") cls a b).trans ?_
    refine (cutl (v := c!"std::basic_string<char, ") (cut (w := c!"char_traits<char>, class std::allocator<char> >") str) a b).trans ?_
    refine (cutl (v := c!"std::basic_string<char, std::char_traits<char>, ") (cut (w := c!"allocator<char> >") cls) a b).trans ?_
    exact td (n := c!"std::string") (f := c!"std::basic_string<char, std::char_traits<char>, std::allocator<char> >") (by decide +kernel) a b
  · exact .inr (td (by decide +kernel))
  · exact .inr (td (by decide +kernel))
  · exact .inr (cut (w := c!"string") cls)
  · exact .inr (cut (w := c!"ostream") cls)
  · exact .inr (cut (w := c!"istream") cls)
  · exact .inr fun a b => (cut (w := c!"__thread_id") cls a b).trans
      (td (n := c!"std::thread::id") (f := c!"std::__thread_id") (by decide +kernel) a b)
  · exact .inr (td (by decide +kernel))
  · exact .inl rfl

/-- The words that the theorem excludes: `nullptr_t`, and the ends and beginnings of `multiset<` and `wchar_traits` that no replacement can
complete. -/
def excluded : List Str := [c!"nullptr_t", c!"ultiset<", c!"wchar_trait"]

theorem nameMap_apart : ∀ p ∈ nameMap, p.1 ≠ [] ∧ ∀ w ∈ excluded, p.1 = c!"nullptr_t" ∨ WordApart w p.2 := by
  decide +kernel

/-- The replacements of `standard_name` write parts of the name in another way, and add none of the excluded words. -/
theorem applyNameMap_renamed {s : Str} (h : ∀ w ∈ excluded, ¬ w <:+: s) :
    Renamed s (applyNameMap s) ∧ ∀ w ∈ excluded, ¬ w <:+: applyNameMap s := by
  have key : ∀ (m : List (Str × Str)), (∀ p ∈ m, p ∈ nameMap) → ∀ t, (Renamed s t ∧ ∀ w ∈ excluded, ¬ w <:+: t) →
      (Renamed s (m.foldl (fun r p => replaceAll r p.1 p.2) t) ∧ ∀ w ∈ excluded, ¬ w <:+: m.foldl (fun r p => replaceAll r p.1 p.2) t) := by
    intro m
    induction m with
    | nil => exact fun _ t h => h
    | cons p m ih =>
      intro hm t ht
      refine ih (fun q hq => hm q (List.mem_cons_of_mem _ hq)) _ ?_
      have hp := hm p List.mem_cons_self
      have := replaceGo_holds (P := fun t => Renamed s t ∧ ∀ w ∈ excluded, ¬ w <:+: t) (frm := p.1) (to := p.2) (nameMap_apart p hp).1 ?_
        t.length t [] (Nat.le_refl _) ht
      · exact this
      · rintro a b ⟨h1, h2⟩
        have hno : p.1 ≠ c!"nullptr_t" := fun e => h2 _ List.mem_cons_self ⟨a, b, by rw [e]⟩
        refine ⟨h1.trans ((nameMap_renamed p hp).resolve_left hno a b), fun w hw hi => ?_⟩
        rcases infix_apart (((nameMap_apart p hp).2 w hw).resolve_left hno) hi with h3 | h3
        · exact h2 w hw (h3.trans ⟨[], p.1 ++ b, by simp⟩)
        · exact h2 w hw (h3.trans ⟨a ++ p.1, [], by simp⟩)
  exact key nameMap (fun _ h => h) s ⟨.same s, h⟩

theorem fixBool_renamed (s : Str) : Renamed s (fixBooleanTypes s) :=
  fixBoolGo_holds (P := Renamed s) (fun a b h => h.trans (.one a b .bool)) s.length s none [] (Nat.le_refl _) (.same s)

theorem dropped_renamed {s t : Str} (h : Dropped s t) (p : Str) : Renamed (p ++ s) (p ++ t) := by
  induction h with
  | same => exact .same _
  | step a b h _ ih =>
    have := Renamed.step (p ++ a) b (.defaults h) (by simpa only [List.append_assoc] using ih)
    simpa only [List.append_assoc] using this

/-- **C119, part.** The name that binder writes for a type comes from the name that clang prints by steps that are each another way to write
the same: inline namespaces and the words `class` and `struct` before names of the standard library dropped, names that the standard
declares for the strings and streams, default arguments of containers, `bool`. Missing: names with `nullptr_t`, see `C119_nullptr_false`;
`multiset` and the wide streams, see `C77_multiset_false`; that a step applies to a whole word, see `C119_word_false`. -/
theorem C119_renamed_partial (s : Str) (hn : ¬ c!"nullptr_t" <:+: s) (hm : ¬ c!"ultiset<" <:+: s) (hw : ¬ c!"wchar_trait" <:+: s) :
    Renamed s (standardName simplifyStd s) := by
  obtain ⟨h, hx⟩ := applyNameMap_renamed (s := s) (by
    intro w h
    simp only [excluded, List.mem_cons, List.not_mem_nil, or_false] at h
    rcases h with rfl | rfl | rfl <;> assumption)
  unfold standardName
  generalize applyNameMap s = r at h hx
  refine Renamed.trans (t := if beginsWith r c!"std::" then c!"std::" ++ simplifyStd (r.drop 5) else r) ?_ (fixBool_renamed _)
  split
  · rename_i hb
    obtain ⟨x, rfl⟩ := (C58_begins_with _ _).1 hb
    have e : (c!"std::" ++ x).drop 5 = x := rfl
    rw [e]
    have sub {w : Str} (hi : w <:+: x) : w <:+: c!"std::" ++ x := infix_append_right hi
    have h1 : ¬ c!"multiset<" <:+: x := fun hi => hx c!"ultiset<" (by decide +kernel) (sub (.trans ⟨c!"m", [], rfl⟩ hi))
    have h2 : ¬ c!"std::wchar_traits" <:+: x := fun hi => hx c!"wchar_trait" (by decide +kernel) (sub (.trans ⟨c!"std::", c!"s", rfl⟩ hi))
    rcases C77_defaults_partial x h1 h2 with h3 | h3
    · have := Renamed.one [] [] (.stream h3)
      rw [List.nil_append, List.append_nil, List.nil_append, List.append_nil] at this
      exact h.trans this
    · exact h.trans (dropped_renamed h3 _)
  · exact h

/-- The hypotheses of `C119_renamed_partial` are met, and the name is one that every kind of step has changed. -/
example : ¬ c!"nullptr_t" <:+: c!"std::__1::vector<class std::__1::basic_string<char>,std::allocator<class std::__1::basic_string<char>>>" ∧
    ¬ c!"ultiset<" <:+: c!"std::__1::vector<class std::__1::basic_string<char>,std::allocator<class std::__1::basic_string<char>>>" ∧
    ¬ c!"wchar_trait" <:+: c!"std::__1::vector<class std::__1::basic_string<char>,std::allocator<class std::__1::basic_string<char>>>" ∧
    standardName simplifyStd c!"std::__1::vector<class std::__1::basic_string<char>,std::allocator<class std::__1::basic_string<char>>>" =
      c!"std::vector<std::string>" ∧
    standardName simplifyStd c!"const class ns::Pair<class std::__thread_id, _Bool> &" = c!"const class ns::Pair<std::thread::id, bool> &" := by
  refine ⟨not_infix_iff.2 (by decide +kernel), not_infix_iff.2 (by decide +kernel), not_infix_iff.2 (by decide +kernel), ?_, by decide +kernel⟩
  unfold standardName
  simp only [simplify_quick]
  decide +kernel

/-- **C119 fails for `nullptr_t`**: the standard name of the type becomes a name of nothing, and so does that of a class of the user whose
name ends in the same letters. -/
theorem C119_nullptr_false : standardName simplifyStd c!"const std::nullptr_t &" = c!"const std::std::nullptr_t &" ∧
    standardName simplifyStd c!"class my::fat_nullptr_t" = c!"class my::fat_std::nullptr_t" := by
  decide +kernel

/-- **C119 fails for names that end in the name of a namespace**: the steps do not look at the letters before the text they replace, so the
class `mystd::__1::A` is written as another, `mystd::A`. -/
theorem C119_word_false : standardName simplifyStd c!"class mystd::__1::A" = c!"class mystd::A" := by
  decide +kernel

end Binder
