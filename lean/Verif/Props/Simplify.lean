import Verif.Lemmas.Simplify
import Verif.Props.Memo

/-!
# C77: simplified names of standard containers
-/

namespace Binder

open Spec

/-- **C77, the regular expressions.** A match is found exactly if there is one; it is the leftmost one, and of those the longest. -/
theorem C77_leftmost_longest (ps : List Pat) (s : Str) :
    (findMatch ps s = none ↔ ∀ before w after gs, s = before ++ w ++ after → ¬ Fits ps [] w gs) ∧
    ∀ before gs after, findMatch ps s = some (before, gs, after) → ∃ w, s = before ++ w ++ after ∧ Fits ps [] w gs ∧
      (∀ before' w' after' gs', s = before' ++ w' ++ after' → Fits ps [] w' gs' →
        before.length < before'.length ∨ before.length = before'.length ∧ w'.length ≤ w.length) := by
  refine ⟨findMatch_none, fun before gs after h => ?_⟩
  obtain ⟨w, e, hf, h1, h2⟩ := findMatch_some h
  refine ⟨w, e, hf, fun b' w' a' gs' e' hf' => ?_⟩
  rcases Nat.lt_trichotomy before.length b'.length with h3 | h3 | h3
  · exact .inl h3
  · refine .inr ⟨h3, ?_⟩
    have hb : before = b' := by
      have := e.symm.trans e'
      rw [List.append_assoc, List.append_assoc] at this
      exact (List.append_inj this h3).1
    by_cases hw : w'.length ≤ w.length
    · exact hw
    · exact absurd hf' (h1 w' a' gs' (hb ▸ e') (by omega))
  · exact absurd hf' (h2 b' w' a' gs' e' h3)

/-- **C77, termination.** For every name the loop ends, after at most as many passes as the name has characters, plus two. -/
theorem C77_terminates (s : Str) : ∃ r, simplifyStd s = r ∧ ∀ n, s.length + 2 ≤ n → simplifyStdF n s = some r := by
  unfold simplifyStd simplifyStdF
  cases h : stdTypedefMap.lookup s with
  | some r => exact ⟨r, rfl, fun _ _ => rfl⟩
  | none =>
    obtain ⟨r, hr⟩ := simplifyLoopF_some (s.length + 2) s 0 (Nat.le_refl _)
    exact ⟨r, by simp only [hr, Option.getD_some], fun n hn => simplifyLoopF_mono hr hn⟩

theorem noMatch_nil : NoMatch [] := by
  intro p hp
  rw [← subst_eq_iff hp]
  rcases subst_shorter hp [] with h | h
  · exact h
  · simp at h

theorem simplifyStd_cases (P : Str → Prop) (hP : ∀ p ∈ regexMap, ∀ s, P s → P (subst p s)) (s : Str) (hs : P s) :
    (∃ t, stdTypedefMap.lookup s = some t ∧ simplifyStd s = t) ∨
      stdTypedefMap.lookup s = none ∧ P (simplifyStd s) ∧ NoMatch (simplifyStd s) := by
  obtain ⟨r, hr, hn⟩ := C77_terminates s
  have h := hn _ (Nat.le_refl _)
  unfold simplifyStdF at h
  cases hl : stdTypedefMap.lookup s with
  | some t => rw [hl] at h; cases h; exact .inl ⟨_, rfl, hr⟩
  | none =>
    rw [hl] at h
    right
    rw [hr]
    obtain ⟨a, b⟩ := simplifyLoopF_end P hP h hs fun e => by
      rw [List.length_eq_zero_iff.1 e]
      exact noMatch_nil
    exact ⟨rfl, a, b⟩

theorem simplifyStd_noMatch {s : Str} (hl : stdTypedefMap.lookup s = none) (h : NoMatch s) : simplifyStd s = s := by
  have hp : simplifyPass s = s := by
    have : ∀ (l : List (List Pat × List Sub)), (∀ p ∈ l, p ∈ regexMap) → l.foldl (fun s p => subst p s) s = s := by
      intro l
      induction l with
      | nil => intro _; rfl
      | cons p l ih =>
        intro hl
        rw [List.foldl_cons, noMatch_iff.1 h p (hl p List.mem_cons_self)]
        exact ih fun q hq => hl q (List.mem_cons_of_mem _ hq)
    exact this regexMap fun _ h => h
  unfold simplifyStd simplifyStdF
  rw [hl]
  simp only [simplifyLoopF, hp]
  split
  · rfl
  · simp only [if_true, Option.getD_some]

theorem infix_append_left {a b c : Str} (h : a <:+: b) : a <:+: b ++ c := h.trans ⟨[], c, by simp⟩
theorem infix_append_right {a b c : Str} (h : a <:+: c) : a <:+: b ++ c := h.trans ⟨b, [], by simp⟩

/-- A container keeps its word. -/
theorem Spec.DefaultArguments.word {full short : Str} (h : DefaultArguments full short) :
    ∃ w ∈ containerWords, w <:+: full ∧ w <:+: short := by
  have key : ∀ (c w p r r' : Str), c ++ c!"<" = p ++ w → w ∈ containerWords → ∃ w ∈ containerWords, w <:+: c ++ c!"<" ++ r ∧ w <:+: c ++ c!"<" ++ r' := by
    intro c w p r r' e hw
    exact ⟨w, hw, ⟨p, r, by rw [e]⟩, ⟨p, r', by rw [e]⟩⟩
  cases h with
  | sequence c T b1 b2 b3 hc =>
    simp only [List.append_assoc]
    simp only [← List.append_assoc c c!"<"]
    rcases hc with rfl | rfl | rfl | rfl
    · exact key _ c!"list<" [] _ _ rfl (by decide)
    · exact key _ c!"deque<" [] _ _ rfl (by decide)
    · exact key _ c!"vector<" [] _ _ rfl (by decide)
    · exact key _ c!"list<" c!"forward_" _ _ rfl (by decide)
  | set T b1 b2 b3 b4 b5 =>
    simp only [List.append_assoc]
    exact key c!"set" c!"set<" [] _ _ rfl (by decide)
  | map c K V b1 b2 b3 b4 b5 b6 hc =>
    simp only [List.append_assoc]
    simp only [← List.append_assoc c c!"<"]
    rcases hc with rfl | rfl
    · exact key _ c!"map<" [] _ _ rfl (by decide)
    · exact key _ c!"map<" c!"multi" _ _ rfl (by decide)
  | unorderedSet c T b1 b2 b3 b4 b5 hc =>
    simp only [List.append_assoc]
    simp only [← List.append_assoc c c!"<"]
    rcases hc with rfl | rfl
    · exact key _ c!"set<" c!"unordered_" _ _ rfl (by decide)
    · exact key _ c!"set<" c!"unordered_multi" _ _ rfl (by decide)
  | unorderedMap c K V b0 b1 b2 b3 b4 b5 b6 b7 hc =>
    simp only [List.append_assoc]
    simp only [← List.append_assoc c c!"<"]
    rcases hc with rfl | rfl
    · exact key _ c!"map<" c!"unordered_" _ _ rfl (by decide)
    · exact key _ c!"map<" c!"unordered_multi" _ _ rfl (by decide)

theorem regex_word {p : List Pat × List Sub} (hp : p ∈ regexMap) {w : Str} {gs : List Str} (h : Fits p.1 [] w gs) :
    ∃ c ∈ containerWords, c <:+: w ∧ c <:+: expand gs p.2 := by
  rcases regex_default hp h with h | ⟨T, L, A, b1, b2, -, -, rfl, e⟩
  · exact h.word
  · rw [e]
    simp only [List.append_assoc]
    exact ⟨c!"set<", by decide, ⟨c!"multi", _, rfl⟩, ⟨c!"multi", _, rfl⟩⟩

/-- The table of streams holds names of the standard. The one exception mentions `std::wchar_traits`, a class that does not exist. -/
theorem typedef_stream {s t : Str} (h : (s, t) ∈ stdTypedefMap) : StreamName s t ∨ c!"std::wchar_traits" <:+: s := by
  have : ∀ p ∈ stdTypedefMap,
      (streams.any fun n => charTypes.any fun k => (p.1 == streamFull n.1 n.2 k.1 || p.1 == streamShort n.1 k.1) && p.2 == k.2 ++ n.1) = true ∨
        p.1 = c!"basic_stringbuf<wchar_t," ++ c!"std::wchar_traits" ++ c!"<wchar_t>,std::allocator<wchar_t>>" := by decide +kernel
  rcases this _ h with h | h
  · simp only [List.any_eq_true, Bool.and_eq_true, Bool.or_eq_true, beq_iff_eq] at h
    obtain ⟨n, hn, k, hk, h⟩ := h
    exact .inl ⟨n, hn, k, hk, h⟩
  · exact .inr ⟨_, _, h.symm⟩

theorem simplifyStd_other {s : Str} (hs : ∀ w ∈ containerWords, ¬ w <:+: s) (ht : ∀ r, (s, r) ∉ stdTypedefMap) : simplifyStd s = s := by
  refine simplifyStd_noMatch ?_ fun p hp => findMatch_none.2 fun before w after gs e hf => ?_
  · cases hl : stdTypedefMap.lookup s with
    | none => rfl
    | some r =>
      rw [List.lookup_eq_some_iff] at hl
      obtain ⟨l1, l2, e, -⟩ := hl
      exact absurd (by rw [e]; simp) (ht r)
  · obtain ⟨c, hc, hi, -⟩ := regex_word hp hf
    exact hs c hc (e ▸ infix_append_left (infix_append_right hi))

/-- **C77.** A name in which no container occurs, and which is no stream class with a name of its own, is left alone. -/
theorem C77_other_names (s : Str) (hs : ∀ w ∈ containerWords, ¬ w <:+: s) (ht : ∀ t, ¬ StreamName s t) (hw : ¬ c!"std::wchar_traits" <:+: s) :
    simplifyStd s = s :=
  simplifyStd_other hs fun r hr => (typedef_stream hr).elim (ht r) hw

theorem lookup_mem {α β : Type} [BEq α] [LawfulBEq α] {l : List (α × β)} {a : α} {b : β} (h : l.lookup a = some b) : (a, b) ∈ l := by
  rw [List.lookup_eq_some_iff] at h
  obtain ⟨l1, l2, e, -⟩ := h
  rw [e]; simp

/-- **C77, stability.** A simplified name is not simplified further. -/
theorem C77_stable (s : Str) : simplifyStd (simplifyStd s) = simplifyStd s := by
  have hP : ∀ p ∈ regexMap, ∀ t, (t = s ∨ ∃ w ∈ containerWords, w <:+: t) → (subst p t = s ∨ ∃ w ∈ containerWords, w <:+: subst p t) := by
    intro p hp t ht
    cases hm : findMatch p.1 t with
    | none => rw [(subst_eq_iff hp).2 hm]; exact ht
    | some m =>
      obtain ⟨before, gs, after⟩ := m
      obtain ⟨w, e, hf, -⟩ := findMatch_some hm
      obtain ⟨c, hc, -, hi⟩ := regex_word hp hf
      refine .inr ⟨c, hc, ?_⟩
      unfold subst
      rw [hm]
      exact infix_append_left (infix_append_right hi)
  have values : ∀ x ∈ stdTypedefMap, (∀ w ∈ containerWords, ∀ j, j ≤ x.2.length → ¬ w <+: x.2.drop j) ∧ ∀ y ∈ stdTypedefMap, x.2 ≠ y.1 := by decide +kernel
  have keys : ∀ x ∈ stdTypedefMap, ∀ w ∈ containerWords, ∀ j, j ≤ x.1.length → ¬ w <+: x.1.drop j := by decide +kernel
  rcases simplifyStd_cases (fun t => t = s ∨ ∃ w ∈ containerWords, w <:+: t) hP s (.inl rfl) with ⟨t, hl, e⟩ | ⟨hl, h, hn⟩
  · rw [e]
    obtain ⟨h1, h2⟩ := values _ (lookup_mem hl)
    exact simplifyStd_other (fun w hw => not_infix_iff.2 (h1 w hw)) fun r hr => h2 _ hr rfl
  · rcases h with h | ⟨w, hw, hi⟩
    · rw [h] at hn ⊢
      exact simplifyStd_noMatch hl hn
    · refine simplifyStd_noMatch ?_ hn
      cases hl' : stdTypedefMap.lookup (simplifyStd s) with
      | none => rfl
      | some r => exact absurd hi (not_infix_iff.2 (keys _ (lookup_mem hl') w hw))

/-! ## Only default arguments are dropped -/

theorem Spec.Dropped.trans {a b c : Str} (h : Dropped a b) (h' : Dropped b c) : Dropped a c := by
  induction h with
  | same => exact h'
  | step before after hd _ ih => exact .step before after hd (ih h')

/-- An infix without the character between two texts is in one of them. -/
theorem infix_split {w a b : Str} {x : Char} (hx : x ∉ w) (h : w <:+: a ++ x :: b) : w <:+: a ∨ w <:+: b := by
  obtain ⟨p, q, e⟩ := h
  rw [List.append_assoc] at e
  rcases List.append_eq_append_iff.1 e with ⟨c, h1, h2⟩ | ⟨c, h1, h2⟩
  · rcases List.append_eq_append_iff.1 h2 with ⟨d, h3, h4⟩ | ⟨d, h3, h4⟩
    · exact .inl ⟨p, d, by rw [h1, h3]; simp⟩
    · cases d with
      | nil => exact .inl ⟨p, [], by rw [h1, h3]; simp⟩
      | cons y d =>
        simp only [List.cons_append, List.cons.injEq] at h4
        exact absurd (by rw [h3, ← h4.1]; simp) hx
  · cases c with
    | nil =>
      simp only [List.nil_append] at h2
      cases w with
      | nil => exact .inr ⟨[], b, rfl⟩
      | cons y w =>
        simp only [List.cons_append, List.cons.injEq] at h2
        exact absurd (by rw [h2.1]; simp) hx
    | cons y c =>
      simp only [List.cons_append, List.cons.injEq] at h2
      exact .inr ⟨c, q, by rw [h2.2]; simp⟩

/-- Dropping default arguments makes no new word. -/
theorem Spec.DefaultArguments.noNewWord {full short : Str} (h : DefaultArguments full short) (before after : Str) {w : Str} (gt : '>' ∉ w) (co : ',' ∉ w)
    (hi : w <:+: before ++ short ++ after) : w <:+: before ++ full ++ after := by
  have one : ∀ (head T r r' : Str), w <:+: before ++ (head ++ T ++ c!">") ++ after →
      w <:+: before ++ (head ++ T ++ r) ++ after := by
    intro head T r _ h
    have : before ++ (head ++ T ++ c!">") ++ after = (before ++ head ++ T) ++ '>' :: after := by simp
    rw [this] at h
    rcases infix_split gt h with h | h
    · have : before ++ (head ++ T ++ r) ++ after = (before ++ head ++ T) ++ (r ++ after) := by simp
      rw [this]
      exact infix_append_left h
    · exact infix_append_right h
  have two : ∀ (head K V m r : Str), w <:+: before ++ (head ++ K ++ c!"," ++ V ++ c!">") ++ after →
      w <:+: before ++ (head ++ K ++ m ++ V ++ r) ++ after := by
    intro head K V m r h
    have e : before ++ (head ++ K ++ c!"," ++ V ++ c!">") ++ after = (before ++ head ++ K ++ c!"," ++ V) ++ '>' :: after := by simp
    rw [e] at h
    rcases infix_split gt h with h | h
    · have e : before ++ head ++ K ++ c!"," ++ V = (before ++ head ++ K) ++ ',' :: V := by simp
      rw [e] at h
      have e : before ++ (head ++ K ++ m ++ V ++ r) ++ after = (before ++ head ++ K) ++ (m ++ V ++ r ++ after) := by simp
      rcases infix_split co h with h | h
      · rw [e]
        exact infix_append_left h
      · rw [e]
        exact infix_append_right (infix_append_left (infix_append_left (infix_append_right h)))
    · exact infix_append_right h
  cases h with
  | sequence c T b1 b2 b3 hc =>
    have := one (c ++ c!"<") T (c!"," ++ b1 ++ c!"std::allocator<" ++ T ++ b2 ++ c!">" ++ b3 ++ c!">") [] hi
    simp only [List.append_assoc] at this ⊢
    exact this
  | set T b1 b2 b3 b4 b5 =>
    have := one c!"set<" T (c!"," ++ b1 ++ c!"std::less<" ++ T ++ b2 ++ c!">," ++ b3 ++ c!"std::allocator<" ++ T ++ b4 ++ c!">" ++ b5 ++ c!">") [] hi
    simp only [List.append_assoc] at this ⊢
    exact this
  | map c K V b1 b2 b3 b4 b5 b6 hc =>
    have := two (c ++ c!"<") K V c!"," (c!"," ++ b1 ++ c!"std::less<" ++ K ++ b2 ++ c!">," ++ b3 ++ c!"std::allocator<std::pair<const " ++ K ++ c!", " ++ V ++
      b4 ++ c!">" ++ b5 ++ c!">" ++ b6 ++ c!">") hi
    simp only [List.append_assoc] at this ⊢
    exact this
  | unorderedSet c T b1 b2 b3 b4 b5 hc =>
    have := one (c ++ c!"<") T (c!"," ++ b1 ++ c!"std::hash<" ++ T ++ c!">," ++ b2 ++ c!"std::equal_to<" ++ T ++ c!">," ++ b3 ++ c!"std::allocator<" ++ T ++
      b4 ++ c!">" ++ b5 ++ c!">") [] hi
    simp only [List.append_assoc] at this ⊢
    exact this
  | unorderedMap c K V b0 b1 b2 b3 b4 b5 b6 b7 hc =>
    have := two (c ++ c!"<") K V (c!"," ++ b0) (c!",std::hash<" ++ K ++ b1 ++ c!">," ++ b2 ++ c!"std::equal_to<" ++ K ++ b3 ++ c!">," ++ b4 ++
      c!"std::allocator<std::pair<const " ++ K ++ c!", " ++ V ++ b5 ++ c!">" ++ b6 ++ c!">" ++ b7 ++ c!">") hi
    simp only [List.append_assoc] at this ⊢
    exact this

/-- A replacement makes no new word. -/
theorem subst_noNewWord {p : List Pat × List Sub} (hp : p ∈ regexMap) {t w : Str} (gt : '>' ∉ w) (co : ',' ∉ w) (sp : ' ' ∉ w)
    (st : '*' ∉ w) (h : w <:+: subst p t) : w <:+: t := by
  cases hm : findMatch p.1 t with
  | none => rwa [(subst_eq_iff hp).2 hm] at h
  | some m =>
    obtain ⟨before, gs, after⟩ := m
    obtain ⟨x, rfl, hf, -⟩ := findMatch_some hm
    unfold subst at h
    rw [hm] at h
    rcases regex_default hp hf with hd | ⟨T, L, A, b1, b2, -, -, rfl, e⟩
    · exact hd.noNewWord before after gt co h
    · simp only [e] at h
      have e1 : before ++ (c!"multiset<" ++ T ++ c!" *>") ++ after = (before ++ c!"multiset<" ++ T ++ c!" *") ++ '>' :: after := by simp
      rw [e1] at h
      rcases infix_split gt h with h | h
      · have e2 : before ++ c!"multiset<" ++ T ++ c!" *" = (before ++ c!"multiset<" ++ T) ++ ' ' :: c!"*" := by simp
        rw [e2] at h
        rcases infix_split sp h with h | h
        · have e3 : ∀ r : Str, before ++ (c!"multiset<" ++ (T ++ r)) = (before ++ c!"multiset<" ++ T) ++ r := by intro r; simp only [List.append_assoc]
          simp only [List.append_assoc]
          rw [e3]
          exact infix_append_left h
        · rcases List.infix_cons_iff.1 h with ⟨r, h⟩ | h
          · cases w with
            | nil => exact ⟨[], _, rfl⟩
            | cons y w =>
              simp only [List.cons_append, List.cons.injEq] at h
              exact absurd (by rw [h.1]; simp) st
          · have : w = [] := by simpa using h
            exact ⟨[], _, by rw [this]; rfl⟩
      · exact infix_append_right h

/-- **C77, part.** A name that mentions no `multiset` is changed only by dropping default arguments of containers, or it is a stream class
with a name of its own. Missing: `multiset`, see `C77_multiset_false`; that the text dropped is an argument list of a standard container,
see `C77_balanced_false` and `C77_other_class_false`. -/
theorem C77_defaults_partial (s : Str) (hs : ¬ c!"multiset<" <:+: s) (hw : ¬ c!"std::wchar_traits" <:+: s) :
    StreamName s (simplifyStd s) ∨ Dropped s (simplifyStd s) := by
  have hP : ∀ p ∈ regexMap, ∀ t, (Dropped s t ∧ ¬ c!"multiset<" <:+: t) → (Dropped s (subst p t) ∧ ¬ c!"multiset<" <:+: subst p t) := by
    intro p hp t ⟨h1, h2⟩
    cases hm : findMatch p.1 t with
    | none => rw [(subst_eq_iff hp).2 hm]; exact ⟨h1, h2⟩
    | some m =>
      obtain ⟨before, gs, after⟩ := m
      obtain ⟨w, e, hf, -⟩ := findMatch_some hm
      unfold subst
      rw [hm]
      simp only
      rcases regex_default hp hf with h | ⟨T, L, A, b1, b2, -, -, rfl, -⟩
      · subst e
        exact ⟨h1.trans (.step before after h (.same _)), fun hi => h2 (h.noNewWord before after (by decide) (by decide) hi)⟩
      · refine absurd ?_ h2
        rw [e]
        simp only [List.append_assoc]
        exact ⟨before, _, by rw [List.append_assoc]⟩
  rcases simplifyStd_cases _ hP s ⟨.same s, hs⟩ with ⟨t, hl, e⟩ | ⟨-, h, -⟩
  · rcases typedef_stream (lookup_mem hl) with h | h
    · exact .inl (e ▸ h)
    · exact absurd h hw
  · exact .inr h.1

/-- **C77, streams.** The stream classes for `char`, except `fstream`, and three of those for `wchar_t` get their names; the others keep
all their arguments. Missing: names for the others, see `C77_wide_false`. -/
theorem C77_streams_partial (n : Str × Bool) (hn : n ∈ streams) (k : Str × Str) (hk : k ∈ charTypes) :
    simplifyStd (streamFull n.1 n.2 k.1) =
      if k.1 = c!"char" ∧ n.1 ≠ c!"fstream" ∨ n.1 ∈ [c!"istream", c!"ostream", c!"streambuf"] then k.2 ++ n.1 else streamFull n.1 n.2 k.1 := by
  rw [simplify_quick]
  revert n
  revert k
  decide +kernel

/-! ## What goes wrong -/

/-- **C77 fails for `std::multiset`**: the multiset with a transparent comparison becomes a multiset of pointers, and so does a multiset of
lists with nothing but default arguments. -/
theorem C77_multiset_false :
    simplifyStd c!"multiset<int,std::less<void>,std::allocator<int>>" = c!"multiset<int *>" ∧
    simplifyStd (c!"multiset<std::list<A,std::allocator<A>>,std::less<std::list<A,std::allocator<A>>>,std::allocator<std::list<A,std::allocator<A>>>>") =
      c!"multiset<std::list<A> *>" := by
  simp only [simplify_quick]
  decide +kernel

/-- **C77 fails for `std::wstringbuf`**: the row of the table is never used, since it asks for `std::wchar_traits`. -/
theorem C77_wide_false :
    simplifyStd c!"basic_stringbuf<wchar_t,std::char_traits<wchar_t>,std::allocator<wchar_t>>" =
      c!"basic_stringbuf<wchar_t,std::char_traits<wchar_t>,std::allocator<wchar_t>>" := by
  rw [simplify_quick]
  decide +kernel

/-- The text has as many `<` as `>`. -/
def sameBrackets (s : Str) : Bool := s.count '<' == s.count '>'

/-- **C77 fails**: the name of a well-formed type becomes a text that is no name at all. The group of the regular expression ends in the
middle of an argument list. -/
theorem C77_balanced_false : ¬ ∀ s, sameBrackets s = true → sameBrackets (simplifyStd s) = true := by
  intro h
  have := h c!"vector<a<b,std::allocator<a<b>>>,A>" (by decide)
  rw [simplify_quick] at this
  exact absurd this (by decide +kernel)

/-- **C77 fails**: the arguments of any class template whose name ends in `set`, `list`, `map`, ... are dropped, though they may not be its
default arguments. -/
theorem C77_other_class_false : simplifyStd c!"vector<my::flat_set<int,std::less<int>,std::allocator<int>>,A>" = c!"vector<my::flat_set<int>,A>" := by
  rw [simplify_quick]
  decide +kernel

/-- The hypotheses of `C77_other_names` and `C77_defaults_partial` are met, and the containers get their short names. -/
example : (∀ w ∈ containerWords, ¬ w <:+: c!"pair<int,double>") ∧ (∀ t, ¬ StreamName c!"pair<int,double>" t) ∧
    ¬ c!"std::wchar_traits" <:+: c!"pair<int,double>" ∧
    ¬ c!"std::wchar_traits" <:+: c!"map<int,std::list<A, std::allocator<A> >,std::less<int>,std::allocator<std::pair<const int, std::list<A> > >>" ∧
    ¬ c!"multiset<" <:+: c!"map<int,std::list<A, std::allocator<A> >,std::less<int>,std::allocator<std::pair<const int, std::list<A> > >>" ∧
    simplifyStd c!"map<int,std::list<A, std::allocator<A> >,std::less<int>,std::allocator<std::pair<const int, std::list<A> > >>" = c!"map<int,std::list<A>>" := by
  refine ⟨fun w hw => not_infix_iff.2 ((by decide +kernel : ∀ w ∈ containerWords, ∀ j, j ≤ _ → ¬ w <+: c!"pair<int,double>".drop j) w hw), ?_,
    not_infix_iff.2 (by decide +kernel), not_infix_iff.2 (by decide +kernel), not_infix_iff.2 (by decide +kernel), ?_⟩
  · rintro t ⟨n, -, k, -, h | h, -⟩ <;> simp [streamFull, streamShort] at h
  · rw [simplify_quick]
    decide +kernel

/-! ## C56 for the names that the program simplifies -/

/-- **C56 is false** for the function the program uses, see also `C56_nullptr_false`. -/
theorem C56_program_false : ¬ ∀ s : Str, standardName simplifyStd (standardName simplifyStd s) = standardName simplifyStd s := by
  intro h
  exact absurd (h c!"const nullptr_t") (by decide +kernel)

/-- **C56, part.** Normalising twice is the same as normalising once for every name, inside and outside of `std`, in which neither `_Bool`
nor one of the rewritten spellings occurs, before and after. Missing: the names with such spellings, see `C56_program_false`. -/
theorem C56_program_partial (s : Str) (hp : Plain s) (hp' : Plain (standardName simplifyStd s)) (hb : ¬ c!"_Bool" <:+: s) :
    standardName simplifyStd (standardName simplifyStd s) = standardName simplifyStd s := by
  refine C56_stable_partial simplifyStd s hp' fun rest hr => ?_
  unfold standardName at hr
  rw [applyNameMap_plain hp] at hr
  by_cases h : beginsWith s c!"std::" = true
  · obtain ⟨x, rfl⟩ := (C58_begins_with _ _).1 h
    simp only [h, if_true] at hr
    have hx : (c!"std::" ++ x).drop 5 = x := rfl
    rw [hx] at hr
    have hno : ¬ c!"_Bool" <:+: c!"std::" ++ simplifyStd x := by
      intro hi
      have hi' : c!"_Bool" <:+: simplifyStd x := by
        rcases infix_split (a := c!"std:") (x := ':') (by decide) hi with h1 | h1
        · exact absurd h1 (not_infix_iff.2 (by decide))
        · exact h1
      have hP : ∀ p ∈ regexMap, ∀ t, ¬ c!"_Bool" <:+: t → ¬ c!"_Bool" <:+: subst p t :=
        fun p hp t ht hi => ht (subst_noNewWord hp (by decide) (by decide) (by decide) (by decide) hi)
      rcases simplifyStd_cases _ hP x (fun hi => hb (infix_append_right hi)) with ⟨t, hl, e⟩ | ⟨-, h1, -⟩
      · rw [e] at hi'
        exact (by decide +kernel : ∀ x ∈ stdTypedefMap, ∀ j, j ≤ x.2.length → ¬ c!"_Bool" <+: x.2.drop j) _ (lookup_mem hl) |> not_infix_iff.2 |> fun h => h hi'
      · exact h1 hi'
    rw [C17_identity _ hno] at hr
    rw [← List.append_cancel_left hr]
    exact C77_stable x
  · simp only [h, if_false, Bool.false_eq_true] at hr
    rw [C17_identity _ hb] at hr
    exact absurd ((C58_begins_with _ _).2 ⟨rest, hr⟩) h

/-- The hypotheses of `C56_program_partial` are met. -/
example : Plain c!"std::vector<A, std::allocator<A> >" ∧ standardName simplifyStd c!"std::vector<A, std::allocator<A> >" = c!"std::vector<A>" ∧
    Plain c!"std::vector<A>" ∧ ¬ c!"_Bool" <:+: c!"std::vector<A, std::allocator<A> >" := by
  have plain : ∀ s : Str, (∀ p ∈ rewritten, ∀ j, j ≤ s.length → ¬ p <+: s.drop j) → Plain s := fun s h p hp => not_infix_iff.2 (h p hp)
  exact ⟨plain _ (by decide +kernel), by decide +kernel, plain _ (by decide +kernel), not_infix_iff.2 (by decide +kernel)⟩

end Binder
