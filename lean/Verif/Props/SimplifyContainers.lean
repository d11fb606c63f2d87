import Verif.Props.Simplify

/-!
# C77: the short names of the standard containers
-/

namespace Binder

open Spec

/-- Texts with their endings, each followed by `<`, and a last text. -/
def joinLt : List (Str × Str) → Str → Str
  | [], last => last
  | (x, l) :: r, last => x ++ l ++ '<' :: joinLt r last

theorem infix_lt {u a b : Str} (hu : '<' ∉ u) (h : u ++ c!"<" <:+: a ++ '<' :: b) (ha : '<' ∉ a) : u <:+ a ∨ u ++ c!"<" <:+: b := by
  obtain ⟨p, q, e⟩ := h
  rw [List.append_assoc, List.append_assoc] at e
  rcases List.append_eq_append_iff.1 e with ⟨c, h1, h2⟩ | ⟨c, h1, h2⟩
  · rcases List.append_eq_append_iff.1 h2 with ⟨d, h3, h4⟩ | ⟨d, h3, h4⟩
    · cases d with
      | nil => exact .inl ⟨p, by rw [h1, h3]; simp⟩
      | cons y d =>
        simp only [List.cons_append, List.nil_append, List.cons.injEq] at h4
        exact absurd (by rw [h1, h3, ← h4.1]; simp) ha
    · cases d with
      | nil => exact .inl ⟨p, by rw [h1, h3]; simp⟩
      | cons y d =>
        simp only [List.cons_append, List.cons.injEq] at h4
        exact absurd (by rw [h3, ← h4.1]; simp) hu
  · cases c with
    | nil =>
      cases u with
      | nil => exact .inl (List.nil_suffix)
      | cons y u =>
        simp only [List.nil_append, List.cons_append, List.cons.injEq] at h2
        exact absurd (by rw [← h2.1]; simp) hu
    | cons y c =>
      simp only [List.cons_append, List.cons.injEq] at h2
      exact .inr ⟨c, q, by rw [h2.2]; simp⟩

/-- A word before `<` does not occur if it is not the end of a text before `<`. -/
theorem no_word {u : Str} (hu : '<' ∉ u) (segs : List (Str × Str)) (last : Str) (h1 : ∀ x ∈ segs, '<' ∉ x.1 ∧ '<' ∉ x.2) (h2 : '<' ∉ last)
    (h3 : ∀ l ∈ segs.map Prod.snd, ¬ u <:+ l ∧ ¬ l <:+ u) : ¬ u ++ c!"<" <:+: joinLt segs last := by
  induction segs with
  | nil => exact fun h => h2 (h.subset (by simp))
  | cons x segs ih =>
    obtain ⟨x, l⟩ := x
    intro h
    simp only [joinLt] at h
    have hx := h1 _ List.mem_cons_self
    rcases infix_lt hu h (by simp only [List.mem_append, not_or]; exact hx) with h | h
    · have h4 := h3 l (by simp)
      rcases Nat.le_total u.length l.length with hl | hl
      · exact h4.1 (List.suffix_of_suffix_length_le h (List.suffix_append _ _) hl)
      · exact h4.2 (List.suffix_of_suffix_length_le (List.suffix_append _ _) h hl)
    · exact ih (fun y hy => h1 y (List.mem_cons_of_mem _ hy)) (fun l hl => h3 l (by simp only [List.map_cons, List.mem_cons]; exact .inr hl)) h

/-- The first occurrence of a character divides a text in one way. -/
theorem split_first {x : Char} {a b c d : Str} (ha : x ∉ a) (hc : x ∉ c) (h : a ++ x :: b = c ++ x :: d) : a = c ∧ b = d := by
  induction a generalizing c with
  | nil =>
    cases c with
    | nil => simpa using h
    | cons y c =>
      simp only [List.nil_append, List.cons_append, List.cons.injEq] at h
      exact absurd (by rw [h.1]; simp) hc
  | cons z a ih =>
    cases c with
    | nil =>
      simp only [List.nil_append, List.cons_append, List.cons.injEq] at h
      exact absurd (by rw [h.1]; simp) ha
    | cons y c =>
      simp only [List.cons_append, List.cons.injEq] at h
      obtain ⟨h1, h2⟩ := ih (fun hh => ha (List.mem_cons_of_mem _ hh)) (fun hh => hc (List.mem_cons_of_mem _ hh)) h.2
      exact ⟨by rw [h.1, h1], h2⟩

theorem spaces_count {b : Str} (hb : Spaces b) : b.count ',' = 0 := List.count_eq_zero.2 fun h => absurd (hb _ h) (by decide)

theorem fits_needs {ps : List Pat} {gs gs' : List Str} {w l : Str} (h : Fits ps gs w gs') (hl : .lit l ∈ ps) : l <:+: w := by
  induction h with
  | done => cases hl
  | lit l' _ ih =>
    rcases List.mem_cons.1 hl with e | hl
    · cases e; exact ⟨[], _, rfl⟩
    · exact infix_append_right (ih hl)
  | back n _ ih => exact infix_append_right (ih (by simpa using hl))
  | spaces b _ _ ih => exact infix_append_right (ih (by simpa using hl))
  | group g _ ih => exact infix_append_right (ih (by simpa using hl))

theorem no_match {p : List Pat × List Sub} {l s : Str} (hl : .lit l ∈ p.1) (hs : ¬ l <:+: s) : findMatch p.1 s = none :=
  findMatch_none.2 fun _ _ _ _ e hf => hs (e ▸ infix_append_left (infix_append_right (fits_needs hf hl)))


/-- Every pattern asks for an allocator. -/
theorem regex_allocator {p : List Pat × List Sub} (hp : p ∈ regexMap) : ∃ l, .lit l ∈ p.1 ∧ c!"std::allocator" ++ c!"<" <:+: l := by
  unfold regexMap at hp
  repeat (
    rcases List.mem_cons.1 hp with rfl | hp
    · first
      | exact ⟨c!"std::allocator<", by decide, [], [], rfl⟩
      | exact ⟨c!"std::allocator<std::pair<const ", by decide, [], c!"std::pair<const ", rfl⟩
      | exact ⟨c!">,std::allocator<std::pair<const ", by decide, c!">,", c!"std::pair<const ", rfl⟩
      | exact ⟨c!">,std::allocator<", by decide, c!">,", [], rfl⟩)
  cases hp

theorem noMatch_of_allocator {s : Str} (h : ¬ c!"std::allocator" ++ c!"<" <:+: s) : NoMatch s := by
  intro p hp
  obtain ⟨l, h1, h2⟩ := regex_allocator hp
  exact no_match h1 fun h3 => h (h2.trans h3)

/-- The first match of a pattern and its replacement, when the pattern fits the rest of the text after `before`, where the first `<` stands
behind the first word of the pattern. -/
theorem subst_first {p : List Pat × List Sub} {u before w short : Str} {gs : List Str} (hu : ∃ ps, p.1 = .lit (u ++ c!"<") :: ps)
    (hw : ∃ t, w = u ++ '<' :: t) (h1 : '<' ∉ before ++ u) (hf : Fits p.1 [] w gs) (hd : ∀ gs', Fits p.1 [] w gs' → expand gs' p.2 = short) :
    subst p (before ++ w) = before ++ short := by
  unfold subst
  split
  · rename_i hn
    exact absurd hf (findMatch_none.1 hn before w [] gs (by simp))
  · rename_i b gs' a hm
    obtain ⟨w', e, hf', hlong, hleft⟩ := findMatch_some hm
    obtain ⟨ps, hps⟩ := hu
    obtain ⟨t, rfl⟩ := hw
    have hf2 := hf'
    rw [hps] at hf2
    obtain ⟨t', rfl, -⟩ := fits_lit.1 hf2
    have hb : before.length ≤ b.length := by
      by_cases hlt : b.length < before.length
      · exfalso
        have e2 : (before ++ u) ++ '<' :: t = (b ++ u) ++ '<' :: (t' ++ a) := by simpa using e
        rcases List.append_eq_append_iff.1 e2 with ⟨c, h3, -⟩ | ⟨c, h3, h4⟩
        · have := congrArg List.length h3
          simp at this
          omega
        · cases c with
          | nil => have := congrArg List.length h3; simp at this; omega
          | cons y c =>
            simp only [List.cons_append, List.cons.injEq] at h4
            exact h1 (by rw [h3, ← h4.1]; simp)
      · omega
    have hb2 : ¬ before.length < b.length := fun hlt => hleft before (u ++ '<' :: t) [] gs (by simp) hlt hf
    rw [List.append_assoc] at e
    obtain ⟨rfl, e2⟩ := List.append_inj e (by omega)
    have ha : a = [] := by
      cases a with
      | nil => rfl
      | cons y a =>
        have := hlong (u ++ '<' :: t) [] gs (by simp) (by rw [e2]; simp)
        exact absurd hf this
    subst ha
    rw [List.append_nil] at e2
    rw [hd gs' (e2 ▸ hf')]
    simp

/-- One replacement is all that happens. -/
theorem simplify_one {s r : Str} (l1 l2 : List (List Pat × List Sub)) (p : List Pat × List Sub) (he : regexMap = l1 ++ p :: l2)
    (h0 : stdTypedefMap.lookup s = none) (hs : s ≠ []) (h1 : ∀ q ∈ l1, findMatch q.1 s = none) (h2 : subst p s = r) (h3 : NoMatch r) :
    simplifyStd s = r := by
  have hpass : simplifyPass s = r := by
    unfold simplifyPass
    rw [he, List.foldl_append, List.foldl_cons]
    have hl1 : ∀ l : List (List Pat × List Sub), (∀ q ∈ l, findMatch q.1 s = none) → l.foldl (fun s p => subst p s) s = s := by
      intro l hl
      induction l with
      | nil => rfl
      | cons q l ih =>
        rw [List.foldl_cons]
        have : subst q s = s := by unfold subst; rw [hl q List.mem_cons_self]
        rw [this]
        exact ih fun q hq => hl q (List.mem_cons_of_mem _ hq)
    have hl2 : ∀ l : List (List Pat × List Sub), (∀ q ∈ l, findMatch q.1 r = none) → l.foldl (fun s p => subst p s) r = r := by
      intro l hl
      induction l with
      | nil => rfl
      | cons q l ih =>
        rw [List.foldl_cons]
        have : subst q r = r := by unfold subst; rw [hl q List.mem_cons_self]
        rw [this]
        exact ih fun q hq => hl q (List.mem_cons_of_mem _ hq)
    rw [hl1 l1 h1, h2]
    exact hl2 l2 fun q hq => h3 q (by rw [he]; simp [hq])
  have hpass2 : simplifyPass r = r := by
    unfold simplifyPass
    have hl2 : ∀ l : List (List Pat × List Sub), (∀ q ∈ l, findMatch q.1 r = none) → l.foldl (fun s p => subst p s) r = r := by
      intro l hl
      induction l with
      | nil => rfl
      | cons q l ih =>
        rw [List.foldl_cons]
        have : subst q r = r := by unfold subst; rw [hl q List.mem_cons_self]
        rw [this]
        exact ih fun q hq => hl q (List.mem_cons_of_mem _ hq)
    exact hl2 regexMap h3
  have hloop : ∀ n m, simplifyLoopF (n + 2) r m = some r := by
    intro n m
    by_cases hm : r.length = m
    · simp [simplifyLoopF, hm]
    · simp [simplifyLoopF, hm, hpass2]
  unfold simplifyStd simplifyStdF
  rw [h0]
  simp only
  cases s with
  | nil => exact absurd rfl hs
  | cons c s =>
    have : (simplifyLoopF ((c :: s).length + 2) (c :: s) 0) = simplifyLoopF (s.length + 2) r (c :: s).length := by
      rw [← hpass, show (c :: s).length + 2 = (s.length + 2) + 1 by simp]
      rw [simplifyLoopF]
      simp
    rw [this, hloop]
    rfl


theorem count_absent {x : Char} {s : Str} (h : x ∉ s) : s.count x = 0 := List.count_eq_zero.2 h

/-- The words of the patterns that shorten the containers. -/
theorem words_lt {c : Str} (hc : c ∈ [c!"list", c!"deque", c!"vector", c!"forward_list", c!"set", c!"multiset", c!"map", c!"multimap", c!"unordered_set",
    c!"unordered_multiset", c!"unordered_map", c!"unordered_multimap"]) : '<' ∉ c := by
  revert c
  decide

theorem sequence_unique {c K w short : Str} (hc : c = c!"list" ∨ c = c!"deque" ∨ c = c!"vector") (hK : SimpleType K)
    (hw : w = c ++ '<' :: (K ++ c!",std::allocator<" ++ K ++ c!">" ++ c!">")) (h : DefaultArguments w short) : short = c ++ '<' :: (K ++ c!">") := by
  obtain ⟨-, -, hK3, -⟩ := hK
  have hcl : '<' ∉ c := words_lt (by rcases hc with rfl | rfl | rfl <;> decide)
  cases h with
  | sequence c' T b1 b2 b3 hc' h1 h2 h3 =>
    have hcl' : '<' ∉ c' := words_lt (by rcases hc' with rfl | rfl | rfl | rfl <;> decide)
    simp only [List.append_assoc, List.cons_append, List.nil_append] at hw
    obtain ⟨rfl, e⟩ := split_first hcl' hcl hw
    have hT : ',' ∉ T := by
      have := congrArg (List.count ',') e
      simp [List.count_append, count_absent hK3, spaces_count h1, spaces_count h2, spaces_count h3] at this
      exact List.count_eq_zero.1 (by omega)
    obtain ⟨rfl, -⟩ := split_first hT hK3 e
    simp
  | set =>
    simp only [List.append_assoc, List.cons_append, List.nil_append] at hw
    exact absurd (split_first (a := c!"set") (by decide) hcl hw).1 (by rcases hc with rfl | rfl | rfl <;> decide)
  | map c' _ _ _ _ _ _ _ _ hc' =>
    have hcl' : '<' ∉ c' := words_lt (by rcases hc' with rfl | rfl <;> decide)
    simp only [List.append_assoc, List.cons_append, List.nil_append] at hw
    exact absurd (split_first hcl' hcl hw).1 (by rcases hc with rfl | rfl | rfl <;> rcases hc' with rfl | rfl <;> decide)
  | unorderedSet c' _ _ _ _ _ _ hc' =>
    have hcl' : '<' ∉ c' := words_lt (by rcases hc' with rfl | rfl <;> decide)
    simp only [List.append_assoc, List.cons_append, List.nil_append] at hw
    exact absurd (split_first hcl' hcl hw).1 (by rcases hc with rfl | rfl | rfl <;> rcases hc' with rfl | rfl <;> decide)
  | unorderedMap c' _ _ _ _ _ _ _ _ _ _ hc' =>
    have hcl' : '<' ∉ c' := words_lt (by rcases hc' with rfl | rfl <;> decide)
    simp only [List.append_assoc, List.cons_append, List.nil_append] at hw
    exact absurd (split_first hcl' hcl hw).1 (by rcases hc with rfl | rfl | rfl <;> rcases hc' with rfl | rfl <;> decide)

theorem set_unique {K w short : Str} (hK : SimpleType K)
    (hw : w = c!"set" ++ '<' :: (K ++ c!",std::less<" ++ K ++ c!">,std::allocator<" ++ K ++ c!">" ++ c!">")) (h : DefaultArguments w short) :
    short = c!"set" ++ '<' :: (K ++ c!">") := by
  obtain ⟨-, -, hK3, -⟩ := hK
  have hcl : '<' ∉ c!"set" := by decide
  cases h with
  | sequence c' T b1 b2 b3 hc' h1 h2 h3 =>
    have hcl' : '<' ∉ c' := words_lt (by rcases hc' with rfl | rfl | rfl | rfl <;> decide)
    simp only [List.append_assoc, List.nil_append] at hw
    exact absurd (split_first hcl' hcl hw).1 (by rcases hc' with rfl | rfl | rfl | rfl <;> decide)
  | set T b1 b2 b3 b4 b5 h1 h2 h3 h4 h5 =>
    simp only [List.append_assoc, List.nil_append] at hw
    obtain ⟨-, e⟩ := split_first (a := c!"set") hcl hcl hw
    have hT : ',' ∉ T := by
      have := congrArg (List.count ',') e
      simp [List.count_append, count_absent hK3, spaces_count h1, spaces_count h2, spaces_count h3, spaces_count h4, spaces_count h5] at this
      exact List.count_eq_zero.1 (by omega)
    obtain ⟨rfl, -⟩ := split_first hT hK3 e
    simp
  | map c' _ _ _ _ _ _ _ _ hc' =>
    have hcl' : '<' ∉ c' := words_lt (by rcases hc' with rfl | rfl <;> decide)
    simp only [List.append_assoc, List.nil_append] at hw
    exact absurd (split_first hcl' hcl hw).1 (by rcases hc' with rfl | rfl <;> decide)
  | unorderedSet c' _ _ _ _ _ _ hc' =>
    have hcl' : '<' ∉ c' := words_lt (by rcases hc' with rfl | rfl <;> decide)
    simp only [List.append_assoc, List.nil_append] at hw
    exact absurd (split_first hcl' hcl hw).1 (by rcases hc' with rfl | rfl <;> decide)
  | unorderedMap c' _ _ _ _ _ _ _ _ _ _ hc' =>
    have hcl' : '<' ∉ c' := words_lt (by rcases hc' with rfl | rfl <;> decide)
    simp only [List.append_assoc, List.nil_append] at hw
    exact absurd (split_first hcl' hcl hw).1 (by rcases hc' with rfl | rfl <;> decide)

theorem map_unique {K V w short : Str} (hK : SimpleType K) (hV : SimpleType V)
    (hw : w = c!"map" ++ '<' :: (K ++ c!"," ++ V ++ c!",std::less<" ++ K ++ c!">,std::allocator<std::pair<const " ++ K ++ c!", " ++ V ++ c!">>" ++ c!">"))
    (h : DefaultArguments w short) : short = c!"map" ++ '<' :: (K ++ c!"," ++ V ++ c!">") := by
  obtain ⟨-, -, hK3, -⟩ := hK
  obtain ⟨-, -, hV3, -⟩ := hV
  have hcl : '<' ∉ c!"map" := by decide
  cases h with
  | sequence c' T b1 b2 b3 hc' h1 h2 h3 =>
    have hcl' : '<' ∉ c' := words_lt (by rcases hc' with rfl | rfl | rfl | rfl <;> decide)
    simp only [List.append_assoc, List.nil_append] at hw
    exact absurd (split_first hcl' hcl hw).1 (by rcases hc' with rfl | rfl | rfl | rfl <;> decide)
  | set T b1 b2 b3 b4 b5 h1 h2 h3 h4 h5 =>
    simp only [List.append_assoc, List.nil_append] at hw
    exact absurd (split_first (a := c!"set") (by decide) hcl hw).1 (by decide)
  | map c' K' V' b1 b2 b3 b4 b5 b6 hc' h1 h2 h3 h4 h5 h6 =>
    have hcl' : '<' ∉ c' := words_lt (by rcases hc' with rfl | rfl <;> decide)
    simp only [List.append_assoc, List.nil_append] at hw
    obtain ⟨rfl, e⟩ := split_first hcl' hcl hw
    have hc := congrArg (List.count ',') e
    simp [List.count_append, count_absent hK3, count_absent hV3, spaces_count h1, spaces_count h2, spaces_count h3, spaces_count h4, spaces_count h5, spaces_count h6] at hc
    have hT : ',' ∉ K' := List.count_eq_zero.1 (by omega)
    have hT2 : ',' ∉ V' := List.count_eq_zero.1 (by omega)
    obtain ⟨rfl, e⟩ := split_first hT hK3 e
    obtain ⟨rfl, -⟩ := split_first hT2 hV3 e
    simp
  | unorderedSet c' _ _ _ _ _ _ hc' =>
    have hcl' : '<' ∉ c' := words_lt (by rcases hc' with rfl | rfl <;> decide)
    simp only [List.append_assoc, List.nil_append] at hw
    exact absurd (split_first hcl' hcl hw).1 (by rcases hc' with rfl | rfl <;> decide)
  | unorderedMap c' _ _ _ _ _ _ _ _ _ _ hc' =>
    have hcl' : '<' ∉ c' := words_lt (by rcases hc' with rfl | rfl <;> decide)
    simp only [List.append_assoc, List.nil_append] at hw
    exact absurd (split_first hcl' hcl hw).1 (by rcases hc' with rfl | rfl <;> decide)

theorem unorderedSet_unique {c K w short : Str} (hc : c = c!"unordered_set" ∨ c = c!"unordered_multiset") (hK : SimpleType K)
    (hw : w = c ++ '<' :: (K ++ c!",std::hash<" ++ K ++ c!">,std::equal_to<" ++ K ++ c!">,std::allocator<" ++ K ++ c!">" ++ c!">"))
    (h : DefaultArguments w short) : short = c ++ '<' :: (K ++ c!">") := by
  obtain ⟨-, -, hK3, -⟩ := hK
  have hcl : '<' ∉ c := words_lt (by rcases hc with rfl | rfl <;> decide)
  cases h with
  | sequence c' T b1 b2 b3 hc' h1 h2 h3 =>
    have hcl' : '<' ∉ c' := words_lt (by rcases hc' with rfl | rfl | rfl | rfl <;> decide)
    simp only [List.append_assoc, List.nil_append] at hw
    exact absurd (split_first hcl' hcl hw).1 (by rcases hc with rfl | rfl <;> rcases hc' with rfl | rfl | rfl | rfl <;> decide)
  | set T b1 b2 b3 b4 b5 h1 h2 h3 h4 h5 =>
    simp only [List.append_assoc, List.nil_append] at hw
    exact absurd (split_first (a := c!"set") (by decide) hcl hw).1 (by rcases hc with rfl | rfl <;> decide)
  | map c' _ _ _ _ _ _ _ _ hc' =>
    have hcl' : '<' ∉ c' := words_lt (by rcases hc' with rfl | rfl <;> decide)
    simp only [List.append_assoc, List.nil_append] at hw
    exact absurd (split_first hcl' hcl hw).1 (by rcases hc with rfl | rfl <;> rcases hc' with rfl | rfl <;> decide)
  | unorderedSet c' T b1 b2 b3 b4 b5 hc' h1 h2 h3 h4 h5 =>
    have hcl' : '<' ∉ c' := words_lt (by rcases hc' with rfl | rfl <;> decide)
    simp only [List.append_assoc, List.nil_append] at hw
    obtain ⟨rfl, e⟩ := split_first hcl' hcl hw
    have hT : ',' ∉ T := by
      have := congrArg (List.count ',') e
      simp [List.count_append, count_absent hK3, spaces_count h1, spaces_count h2, spaces_count h3, spaces_count h4, spaces_count h5] at this
      exact List.count_eq_zero.1 (by omega)
    obtain ⟨rfl, -⟩ := split_first hT hK3 e
    simp
  | unorderedMap c' _ _ _ _ _ _ _ _ _ _ hc' =>
    have hcl' : '<' ∉ c' := words_lt (by rcases hc' with rfl | rfl <;> decide)
    simp only [List.append_assoc, List.nil_append] at hw
    exact absurd (split_first hcl' hcl hw).1 (by rcases hc with rfl | rfl <;> rcases hc' with rfl | rfl <;> decide)

theorem unorderedMap_unique {c K V w short : Str} (hc : c = c!"unordered_map" ∨ c = c!"unordered_multimap") (hK : SimpleType K) (hV : SimpleType V)
    (hw : w = c ++ '<' :: (K ++ c!"," ++ V ++ c!",std::hash<" ++ K ++ c!">,std::equal_to<" ++ K ++ c!">,std::allocator<std::pair<const " ++ K ++ c!", " ++ V ++
      c!">>" ++ c!">")) (h : DefaultArguments w short) : short = c ++ '<' :: (K ++ c!"," ++ V ++ c!">") := by
  obtain ⟨-, -, hK3, -⟩ := hK
  obtain ⟨-, -, hV3, hV4⟩ := hV
  have hcl : '<' ∉ c := words_lt (by rcases hc with rfl | rfl <;> decide)
  cases h with
  | sequence c' T b1 b2 b3 hc' h1 h2 h3 =>
    have hcl' : '<' ∉ c' := words_lt (by rcases hc' with rfl | rfl | rfl | rfl <;> decide)
    simp only [List.append_assoc, List.nil_append] at hw
    exact absurd (split_first hcl' hcl hw).1 (by rcases hc with rfl | rfl <;> rcases hc' with rfl | rfl | rfl | rfl <;> decide)
  | set T b1 b2 b3 b4 b5 h1 h2 h3 h4 h5 =>
    simp only [List.append_assoc, List.nil_append] at hw
    exact absurd (split_first (a := c!"set") (by decide) hcl hw).1 (by rcases hc with rfl | rfl <;> decide)
  | map c' _ _ _ _ _ _ _ _ hc' =>
    have hcl' : '<' ∉ c' := words_lt (by rcases hc' with rfl | rfl <;> decide)
    simp only [List.append_assoc, List.nil_append] at hw
    exact absurd (split_first hcl' hcl hw).1 (by rcases hc with rfl | rfl <;> rcases hc' with rfl | rfl <;> decide)
  | unorderedSet c' _ _ _ _ _ _ hc' =>
    have hcl' : '<' ∉ c' := words_lt (by rcases hc' with rfl | rfl <;> decide)
    simp only [List.append_assoc, List.nil_append] at hw
    exact absurd (split_first hcl' hcl hw).1 (by rcases hc with rfl | rfl <;> rcases hc' with rfl | rfl <;> decide)
  | unorderedMap c' K' V' b0 b1 b2 b3 b4 b5 b6 b7 hc' h0 h1 h2 h3 h4 h5 h6 h7 =>
    have hcl' : '<' ∉ c' := words_lt (by rcases hc' with rfl | rfl <;> decide)
    simp only [List.append_assoc, List.nil_append] at hw
    obtain ⟨rfl, e⟩ := split_first hcl' hcl hw
    have hc := congrArg (List.count ',') e
    simp [List.count_append, count_absent hK3, count_absent hV3, spaces_count h0, spaces_count h1, spaces_count h2, spaces_count h3, spaces_count h4,
      spaces_count h5, spaces_count h6, spaces_count h7] at hc
    have hT : ',' ∉ K' := List.count_eq_zero.1 (by omega)
    have hT2 : ',' ∉ b0 ++ V' := by
      intro hh
      rcases List.mem_append.1 hh with hh | hh
      · exact absurd (h0 _ hh) (by decide)
      · exact List.count_eq_zero.1 (show V'.count ',' = 0 by omega) hh
    obtain ⟨rfl, e⟩ := split_first hT hK3 e
    obtain ⟨e, -⟩ := split_first (a := b0 ++ V') hT2 hV3 (by simpa using e)
    have : b0 = [] := by
      cases b0 with
      | nil => rfl
      | cons y b0 => exact absurd (by rw [← e]; simp [h0 y List.mem_cons_self]) hV4
    subst this
    rw [List.nil_append] at e
    subst e
    simp


theorem fits_eq {ps : List Pat} {gs gs' : List Str} {w w' : Str} (h : Fits ps gs w gs') (e : w' = w) : Fits ps gs w' gs' := e ▸ h

/-- A replacement is a short name in the sense of the specification, unless the text begins with `multiset<`. -/
theorem default_of_fits {p : List Pat × List Sub} (hp : p ∈ regexMap) {c t : Str} {gs : List Str} (hc : c ≠ c!"multiset") (hcl : '<' ∉ c)
    (h : Fits p.1 [] (c ++ '<' :: t) gs) : DefaultArguments (c ++ '<' :: t) (expand gs p.2) := by
  rcases regex_default hp h with h | ⟨T, L, A, b1, b2, -, -, e, -⟩
  · exact h
  · simp only [List.append_assoc, List.nil_append] at e
    exact absurd (split_first (c := c!"multiset") hcl (by decide) e).1 hc

theorem lookup_none {s : Str} (h : s.head? ≠ some 'b') : stdTypedefMap.lookup s = none := by
  have hk : ∀ kv ∈ stdTypedefMap, kv.1.head? = some 'b' := by decide +kernel
  have : ∀ l : List (Str × Str), (∀ kv ∈ l, kv.1.head? = some 'b') → l.lookup s = none := by
    intro l hl
    induction l with
    | nil => rfl
    | cons kv l ih =>
      obtain ⟨k, v⟩ := kv
      have hk := hl _ List.mem_cons_self
      have hne : (s == k) = false := by
        rw [beq_eq_false_iff_ne]
        rintro rfl
        exact h hk
      rw [List.lookup_cons, hne]
      exact ih fun kv h => hl kv (List.mem_cons_of_mem _ h)
  exact this _ hk

/-- One replacement in a container: the pattern number `i` applies behind `before`, the earlier ones lack one of the words `us`. -/
theorem container_step {before c t rest : Str} {gs : List Str} (i : Nat) (hi : i < regexMap.length) (us ends : List Str) (segs : List (Str × Str)) (last : Str)
    (hne : ∃ ps, regexMap[i].1 = .lit (c ++ c!"<") :: ps) (h0 : (before ++ c).head? ≠ some 'b') (hcl : '<' ∉ before ++ c) (hcm : c ≠ c!"multiset")
    (h1 : ∀ q ∈ regexMap.take i, ∃ u ∈ us, .lit (u ++ c!"<") ∈ q.1) (hus : ∀ u ∈ us, '<' ∉ u)
    (hseg : ∀ u ∈ us, ∀ l ∈ ends, ¬ u <:+ l ∧ ¬ l <:+ u) (hends : segs.map Prod.snd = ends)
    (ha : ¬ c!"std::allocator" <:+ before ++ c ∧ ¬ before ++ c <:+ c!"std::allocator")
    (ht : before ++ (c ++ '<' :: t) = joinLt segs last) (h4 : ∀ x ∈ segs, '<' ∉ x.1 ∧ '<' ∉ x.2) (h5 : '<' ∉ last) (h6 : '<' ∉ rest)
    (hf : Fits regexMap[i].1 [] (c ++ '<' :: t) gs)
    (hu : ∀ r, DefaultArguments (c ++ '<' :: t) r → r = c ++ '<' :: rest) : simplifyStd (before ++ (c ++ '<' :: t)) = before ++ (c ++ '<' :: rest) := by
  have hmem : regexMap[i] ∈ regexMap := List.getElem_mem _
  refine simplify_one (regexMap.take i) (regexMap.drop (i + 1)) regexMap[i] ?_ ?_ (by simp) ?_ ?_ (noMatch_of_allocator ?_)
  · rw [← List.drop_eq_getElem_cons hi, List.take_append_drop]
  · refine lookup_none ?_
    rw [← List.append_assoc]
    generalize before ++ c = a at h0
    cases a with
    | nil => simp
    | cons y a => simpa using h0
  · intro q hq
    obtain ⟨u, hu1, hu2⟩ := h1 q hq
    exact no_match hu2 (ht ▸ no_word (hus u hu1) segs last h4 h5 (hends ▸ hseg u hu1))
  · have hcl2 : '<' ∉ c := fun h => hcl (List.mem_append_right _ h)
    exact subst_first hne ⟨t, rfl⟩ hcl hf fun gs' hg => hu _ (default_of_fits hmem hcm hcl2 hg)
  · have := no_word (u := c!"std::allocator") (by decide) [([], before ++ c)] rest
      (fun x hx => by rcases List.mem_cons.1 hx with rfl | hx; exact ⟨by simp, hcl⟩; cases hx) h6
      (fun l hl => by rcases List.mem_cons.1 hl with rfl | hl; exact ha; cases hl)
    simpa [joinLt] using this

theorem short_list {K : Str} (V : Str) (hK : SimpleType K) :
    simplifyStd (Container.list.word ++ c!"<" ++ Container.list.allArguments K V ++ c!">") =
      Container.list.word ++ c!"<" ++ Container.list.arguments K V ++ c!">" := by
  have := container_step (before := []) (c := c!"list") (t := K ++ c!",std::allocator<" ++ K ++ c!">" ++ c!">")
    (rest := K ++ c!">") (gs := [K]) 0 (by decide) []
    [c!"list", c!",std::allocator"] [([], c!"list"), (K, c!",std::allocator")] (K ++ c!">>") ⟨_, rfl⟩
    (by decide) (by decide) (by decide) (by decide +kernel) (by decide +kernel) (by decide +kernel) rfl (by decide +kernel) (by simp [joinLt])
    (by simp [hK.1]) (by simp [hK.1]) (by simp [hK.1])
    (fits_eq (.lit _ (.group K (.lit _ (.spaces [] spaces_nil (.lit _ (.back 1 (.spaces [] spaces_nil (.lit _ (.spaces [] spaces_nil (.lit _ (.done _)))))))))))
      (by simp)) (fun r hr => sequence_unique (by decide) hK rfl hr)
  simpa [Container.word, Container.allArguments, Container.arguments] using this

theorem short_deque {K : Str} (V : Str) (hK : SimpleType K) :
    simplifyStd (Container.deque.word ++ c!"<" ++ Container.deque.allArguments K V ++ c!">") =
      Container.deque.word ++ c!"<" ++ Container.deque.arguments K V ++ c!">" := by
  have := container_step (before := []) (c := c!"deque") (t := K ++ c!",std::allocator<" ++ K ++ c!">" ++ c!">")
    (rest := K ++ c!">") (gs := [K]) 1 (by decide) [c!"list"]
    [c!"deque", c!",std::allocator"] [([], c!"deque"), (K, c!",std::allocator")] (K ++ c!">>") ⟨_, rfl⟩
    (by decide) (by decide) (by decide) (by decide +kernel) (by decide +kernel) (by decide +kernel) rfl (by decide +kernel) (by simp [joinLt])
    (by simp [hK.1]) (by simp [hK.1]) (by simp [hK.1])
    (fits_eq (.lit _ (.group K (.lit _ (.spaces [] spaces_nil (.lit _ (.back 1 (.spaces [] spaces_nil (.lit _ (.spaces [] spaces_nil (.lit _ (.done _)))))))))))
      (by simp)) (fun r hr => sequence_unique (by decide) hK rfl hr)
  simpa [Container.word, Container.allArguments, Container.arguments] using this

theorem short_vector {K : Str} (V : Str) (hK : SimpleType K) :
    simplifyStd (Container.vector.word ++ c!"<" ++ Container.vector.allArguments K V ++ c!">") =
      Container.vector.word ++ c!"<" ++ Container.vector.arguments K V ++ c!">" := by
  have := container_step (before := []) (c := c!"vector") (t := K ++ c!",std::allocator<" ++ K ++ c!">" ++ c!">")
    (rest := K ++ c!">") (gs := [K]) 2 (by decide) [c!"list", c!"deque"]
    [c!"vector", c!",std::allocator"] [([], c!"vector"), (K, c!",std::allocator")] (K ++ c!">>") ⟨_, rfl⟩
    (by decide) (by decide) (by decide) (by decide +kernel) (by decide +kernel) (by decide +kernel) rfl (by decide +kernel) (by simp [joinLt])
    (by simp [hK.1]) (by simp [hK.1]) (by simp [hK.1])
    (fits_eq (.lit _ (.group K (.lit _ (.spaces [] spaces_nil (.lit _ (.back 1 (.spaces [] spaces_nil (.lit _ (.spaces [] spaces_nil (.lit _ (.done _)))))))))))
      (by simp)) (fun r hr => sequence_unique (by decide) hK rfl hr)
  simpa [Container.word, Container.allArguments, Container.arguments] using this

theorem short_forwardList {K : Str} (V : Str) (hK : SimpleType K) :
    simplifyStd (Container.forwardList.word ++ c!"<" ++ Container.forwardList.allArguments K V ++ c!">") =
      Container.forwardList.word ++ c!"<" ++ Container.forwardList.arguments K V ++ c!">" := by
  have := container_step (before := c!"forward_") (c := c!"list") (t := K ++ c!",std::allocator<" ++ K ++ c!">" ++ c!">")
    (rest := K ++ c!">") (gs := [K]) 0 (by decide) []
    [c!"forward_list", c!",std::allocator"] [([], c!"forward_list"), (K, c!",std::allocator")] (K ++ c!">>") ⟨_, rfl⟩
    (by decide) (by decide) (by decide) (by decide +kernel) (by decide +kernel) (by decide +kernel) rfl (by decide +kernel) (by simp [joinLt])
    (by simp [hK.1]) (by simp [hK.1]) (by simp [hK.1])
    (fits_eq (.lit _ (.group K (.lit _ (.spaces [] spaces_nil (.lit _ (.back 1 (.spaces [] spaces_nil (.lit _ (.spaces [] spaces_nil (.lit _ (.done _)))))))))))
      (by simp)) (fun r hr => sequence_unique (by decide) hK rfl hr)
  simpa [Container.word, Container.allArguments, Container.arguments] using this

theorem short_set {K : Str} (V : Str) (hK : SimpleType K) :
    simplifyStd (Container.set.word ++ c!"<" ++ Container.set.allArguments K V ++ c!">") =
      Container.set.word ++ c!"<" ++ Container.set.arguments K V ++ c!">" := by
  have := container_step (before := []) (c := c!"set") (t := K ++ c!",std::less<" ++ K ++ c!">,std::allocator<" ++ K ++ c!">" ++ c!">")
    (rest := K ++ c!">") (gs := [K]) 3 (by decide) [c!"list", c!"deque", c!"vector"]
    [c!"set", c!",std::less", c!">,std::allocator"] [([], c!"set"), (K, c!",std::less"), (K, c!">,std::allocator")] (K ++ c!">>") ⟨_, rfl⟩
    (by decide) (by decide) (by decide) (by decide +kernel) (by decide +kernel) (by decide +kernel) rfl (by decide +kernel) (by simp [joinLt])
    (by simp [hK.1]) (by simp [hK.1]) (by simp [hK.1])
    (fits_eq (.lit _ (.group K (.lit _ (.spaces [] spaces_nil (.lit _ (.back 1 (.spaces [] spaces_nil (.lit _ (.spaces [] spaces_nil (.lit _ (.back 1 (.spaces [] spaces_nil (.lit _ (.spaces [] spaces_nil (.lit _ (.done _))))))))))))))))
      (by simp)) (fun r hr => set_unique hK rfl hr)
  simpa [Container.word, Container.allArguments, Container.arguments] using this

theorem short_multiset {K : Str} (V : Str) (hK : SimpleType K) :
    simplifyStd (Container.multiset.word ++ c!"<" ++ Container.multiset.allArguments K V ++ c!">") =
      Container.multiset.word ++ c!"<" ++ Container.multiset.arguments K V ++ c!">" := by
  have := container_step (before := c!"multi") (c := c!"set") (t := K ++ c!",std::less<" ++ K ++ c!">,std::allocator<" ++ K ++ c!">" ++ c!">")
    (rest := K ++ c!">") (gs := [K]) 3 (by decide) [c!"list", c!"deque", c!"vector"]
    [c!"multiset", c!",std::less", c!">,std::allocator"] [([], c!"multiset"), (K, c!",std::less"), (K, c!">,std::allocator")] (K ++ c!">>") ⟨_, rfl⟩
    (by decide) (by decide) (by decide) (by decide +kernel) (by decide +kernel) (by decide +kernel) rfl (by decide +kernel) (by simp [joinLt])
    (by simp [hK.1]) (by simp [hK.1]) (by simp [hK.1])
    (fits_eq (.lit _ (.group K (.lit _ (.spaces [] spaces_nil (.lit _ (.back 1 (.spaces [] spaces_nil (.lit _ (.spaces [] spaces_nil (.lit _ (.back 1 (.spaces [] spaces_nil (.lit _ (.spaces [] spaces_nil (.lit _ (.done _))))))))))))))))
      (by simp)) (fun r hr => set_unique hK rfl hr)
  simpa [Container.word, Container.allArguments, Container.arguments] using this

theorem short_map {K V : Str} (hK : SimpleType K) (hV : SimpleType V) :
    simplifyStd (Container.map.word ++ c!"<" ++ Container.map.allArguments K V ++ c!">") =
      Container.map.word ++ c!"<" ++ Container.map.arguments K V ++ c!">" := by
  have := container_step (before := []) (c := c!"map") (t := K ++ c!"," ++ V ++ c!",std::less<" ++ K ++ c!">,std::allocator<std::pair<const " ++ K ++ c!", " ++ V ++ c!">>" ++ c!">")
    (rest := K ++ c!"," ++ V ++ c!">") (gs := [K, V]) 5 (by decide) [c!"list", c!"deque", c!"vector", c!"set", c!"forward_list"]
    [c!"map", c!",std::less", c!">,std::allocator", c!"std::pair"] [([], c!"map"), ((K ++ c!"," ++ V), c!",std::less"), (K, c!">,std::allocator"), (([] : Str), c!"std::pair")] (c!"const " ++ K ++ c!", " ++ V ++ c!">>>") ⟨_, rfl⟩
    (by decide) (by decide) (by decide) (by decide +kernel) (by decide +kernel) (by decide +kernel) rfl (by decide +kernel) (by simp [joinLt])
    (by simp [hK.1, hV.1]) (by simp [hK.1, hV.1]) (by simp [hK.1, hV.1])
    (fits_eq (.lit _ (.group K (.lit _ (.group V (.lit _ (.spaces [] spaces_nil (.lit _ (.back 1 (.spaces [] spaces_nil (.lit _ (.spaces [] spaces_nil (.lit _ (.back 1 (.lit _ (.back 2 (.spaces [] spaces_nil (.lit _ (.spaces [] spaces_nil (.lit _ (.spaces [] spaces_nil (.lit _ (.done _))))))))))))))))))))))
      (by simp)) (fun r hr => map_unique hK hV rfl hr)
  simpa [Container.word, Container.allArguments, Container.arguments] using this

theorem short_multimap {K V : Str} (hK : SimpleType K) (hV : SimpleType V) :
    simplifyStd (Container.multimap.word ++ c!"<" ++ Container.multimap.allArguments K V ++ c!">") =
      Container.multimap.word ++ c!"<" ++ Container.multimap.arguments K V ++ c!">" := by
  have := container_step (before := c!"multi") (c := c!"map") (t := K ++ c!"," ++ V ++ c!",std::less<" ++ K ++ c!">,std::allocator<std::pair<const " ++ K ++ c!", " ++ V ++ c!">>" ++ c!">")
    (rest := K ++ c!"," ++ V ++ c!">") (gs := [K, V]) 5 (by decide) [c!"list", c!"deque", c!"vector", c!"set", c!"forward_list"]
    [c!"multimap", c!",std::less", c!">,std::allocator", c!"std::pair"] [([], c!"multimap"), ((K ++ c!"," ++ V), c!",std::less"), (K, c!">,std::allocator"), (([] : Str), c!"std::pair")] (c!"const " ++ K ++ c!", " ++ V ++ c!">>>") ⟨_, rfl⟩
    (by decide) (by decide) (by decide) (by decide +kernel) (by decide +kernel) (by decide +kernel) rfl (by decide +kernel) (by simp [joinLt])
    (by simp [hK.1, hV.1]) (by simp [hK.1, hV.1]) (by simp [hK.1, hV.1])
    (fits_eq (.lit _ (.group K (.lit _ (.group V (.lit _ (.spaces [] spaces_nil (.lit _ (.back 1 (.spaces [] spaces_nil (.lit _ (.spaces [] spaces_nil (.lit _ (.back 1 (.lit _ (.back 2 (.spaces [] spaces_nil (.lit _ (.spaces [] spaces_nil (.lit _ (.spaces [] spaces_nil (.lit _ (.done _))))))))))))))))))))))
      (by simp)) (fun r hr => map_unique hK hV rfl hr)
  simpa [Container.word, Container.allArguments, Container.arguments] using this

theorem short_unorderedSet {K : Str} (V : Str) (hK : SimpleType K) :
    simplifyStd (Container.unorderedSet.word ++ c!"<" ++ Container.unorderedSet.allArguments K V ++ c!">") =
      Container.unorderedSet.word ++ c!"<" ++ Container.unorderedSet.arguments K V ++ c!">" := by
  have := container_step (before := []) (c := c!"unordered_set") (t := K ++ c!",std::hash<" ++ K ++ c!">,std::equal_to<" ++ K ++ c!">,std::allocator<" ++ K ++ c!">" ++ c!">")
    (rest := K ++ c!">") (gs := [K]) 8 (by decide) [c!"list", c!"deque", c!"vector", c!"std::less", c!"forward_list"]
    [c!"unordered_set", c!",std::hash", c!">,std::equal_to", c!">,std::allocator"] [([], c!"unordered_set"), (K, c!",std::hash"), (K, c!">,std::equal_to"), (K, c!">,std::allocator")] (K ++ c!">>") ⟨_, rfl⟩
    (by decide) (by decide) (by decide) (by decide +kernel) (by decide +kernel) (by decide +kernel) rfl (by decide +kernel) (by simp [joinLt])
    (by simp [hK.1]) (by simp [hK.1]) (by simp [hK.1])
    (fits_eq (.lit _ (.group K (.lit _ (.spaces [] spaces_nil (.lit _ (.back 1 (.lit _ (.back 1 (.lit _ (.back 1 (.lit _ (.done _))))))))))))
      (by simp)) (fun r hr => unorderedSet_unique (by decide) hK rfl hr)
  simpa [Container.word, Container.allArguments, Container.arguments] using this

theorem short_unorderedMultiset {K : Str} (V : Str) (hK : SimpleType K) :
    simplifyStd (Container.unorderedMultiset.word ++ c!"<" ++ Container.unorderedMultiset.allArguments K V ++ c!">") =
      Container.unorderedMultiset.word ++ c!"<" ++ Container.unorderedMultiset.arguments K V ++ c!">" := by
  have := container_step (before := []) (c := c!"unordered_multiset") (t := K ++ c!",std::hash<" ++ K ++ c!">,std::equal_to<" ++ K ++ c!">,std::allocator<" ++ K ++ c!">" ++ c!">")
    (rest := K ++ c!">") (gs := [K]) 10 (by decide) [c!"list", c!"deque", c!"vector", c!"std::less", c!"forward_list", c!"unordered_set", c!"unordered_map"]
    [c!"unordered_multiset", c!",std::hash", c!">,std::equal_to", c!">,std::allocator"] [([], c!"unordered_multiset"), (K, c!",std::hash"), (K, c!">,std::equal_to"), (K, c!">,std::allocator")] (K ++ c!">>") ⟨_, rfl⟩
    (by decide) (by decide) (by decide) (by decide +kernel) (by decide +kernel) (by decide +kernel) rfl (by decide +kernel) (by simp [joinLt])
    (by simp [hK.1]) (by simp [hK.1]) (by simp [hK.1])
    (fits_eq (.lit _ (.group K (.lit _ (.spaces [] spaces_nil (.lit _ (.back 1 (.lit _ (.spaces [] spaces_nil (.lit _ (.back 1 (.lit _ (.spaces [] spaces_nil (.lit _ (.back 1 (.spaces [] spaces_nil (.lit _ (.spaces [] spaces_nil (.lit _ (.done _)))))))))))))))))))
      (by simp)) (fun r hr => unorderedSet_unique (by decide) hK rfl hr)
  simpa [Container.word, Container.allArguments, Container.arguments] using this

theorem short_unorderedMap {K V : Str} (hK : SimpleType K) (hV : SimpleType V) :
    simplifyStd (Container.unorderedMap.word ++ c!"<" ++ Container.unorderedMap.allArguments K V ++ c!">") =
      Container.unorderedMap.word ++ c!"<" ++ Container.unorderedMap.arguments K V ++ c!">" := by
  have := container_step (before := []) (c := c!"unordered_map") (t := K ++ c!"," ++ V ++ c!",std::hash<" ++ K ++ c!">,std::equal_to<" ++ K ++ c!">,std::allocator<std::pair<const " ++ K ++ c!", " ++ V ++ c!">>" ++ c!">")
    (rest := K ++ c!"," ++ V ++ c!">") (gs := [K, V]) 9 (by decide) [c!"list", c!"deque", c!"vector", c!"std::less", c!"forward_list", c!"unordered_set"]
    [c!"unordered_map", c!",std::hash", c!">,std::equal_to", c!">,std::allocator", c!"std::pair"] [([], c!"unordered_map"), ((K ++ c!"," ++ V), c!",std::hash"), (K, c!">,std::equal_to"), (K, c!">,std::allocator"), (([] : Str), c!"std::pair")] (c!"const " ++ K ++ c!", " ++ V ++ c!">>>") ⟨_, rfl⟩
    (by decide) (by decide) (by decide) (by decide +kernel) (by decide +kernel) (by decide +kernel) rfl (by decide +kernel) (by simp [joinLt])
    (by simp [hK.1, hV.1]) (by simp [hK.1, hV.1]) (by simp [hK.1, hV.1])
    (fits_eq (.lit _ (.group K (.lit _ (.spaces [] spaces_nil (.group V (.lit _ (.back 1 (.lit _ (.back 1 (.lit _ (.back 1 (.lit _ (.back 2 (.spaces [] spaces_nil (.lit _ (.spaces [] spaces_nil (.lit _ (.spaces [] spaces_nil (.lit _ (.done _))))))))))))))))))))
      (by simp)) (fun r hr => unorderedMap_unique (by decide) hK hV rfl hr)
  simpa [Container.word, Container.allArguments, Container.arguments] using this

theorem short_unorderedMultimap {K V : Str} (hK : SimpleType K) (hV : SimpleType V) :
    simplifyStd (Container.unorderedMultimap.word ++ c!"<" ++ Container.unorderedMultimap.allArguments K V ++ c!">") =
      Container.unorderedMultimap.word ++ c!"<" ++ Container.unorderedMultimap.arguments K V ++ c!">" := by
  have := container_step (before := []) (c := c!"unordered_multimap") (t := K ++ c!"," ++ V ++ c!",std::hash<" ++ K ++ c!">,std::equal_to<" ++ K ++ c!">,std::allocator<std::pair<const " ++ K ++ c!", " ++ V ++ c!">>" ++ c!">")
    (rest := K ++ c!"," ++ V ++ c!">") (gs := [K, V]) 11 (by decide) [c!"list", c!"deque", c!"vector", c!"std::less", c!"forward_list", c!"unordered_set", c!"unordered_map", c!"unordered_multiset"]
    [c!"unordered_multimap", c!",std::hash", c!">,std::equal_to", c!">,std::allocator", c!"std::pair"] [([], c!"unordered_multimap"), ((K ++ c!"," ++ V), c!",std::hash"), (K, c!">,std::equal_to"), (K, c!">,std::allocator"), (([] : Str), c!"std::pair")] (c!"const " ++ K ++ c!", " ++ V ++ c!">>>") ⟨_, rfl⟩
    (by decide) (by decide) (by decide) (by decide +kernel) (by decide +kernel) (by decide +kernel) rfl (by decide +kernel) (by simp [joinLt])
    (by simp [hK.1, hV.1]) (by simp [hK.1, hV.1]) (by simp [hK.1, hV.1])
    (fits_eq (.lit _ (.group K (.lit _ (.spaces [] spaces_nil (.group V (.lit _ (.back 1 (.spaces [] spaces_nil (.lit _ (.spaces [] spaces_nil (.lit _ (.back 1 (.spaces [] spaces_nil (.lit _ (.spaces [] spaces_nil (.lit _ (.back 1 (.lit _ (.back 2 (.spaces [] spaces_nil (.lit _ (.spaces [] spaces_nil (.lit _ (.spaces [] spaces_nil (.lit _ (.done _))))))))))))))))))))))))))
      (by simp)) (fun r hr => unorderedMap_unique (by decide) hK hV rfl hr)
  simpa [Container.word, Container.allArguments, Container.arguments] using this

/-- C77 (part): a standard container of simple types, written with all its default arguments, gets its short name; what is missing are element
types that have template arguments themselves. -/
theorem C77_containers_partial (c : Container) {K V : Str} (hK : SimpleType K) (hV : SimpleType V) :
    simplifyStd (c.word ++ c!"<" ++ c.allArguments K V ++ c!">") = c.word ++ c!"<" ++ c.arguments K V ++ c!">" := by
  cases c with
  | list => exact short_list V hK
  | deque => exact short_deque V hK
  | vector => exact short_vector V hK
  | forwardList => exact short_forwardList V hK
  | set => exact short_set V hK
  | multiset => exact short_multiset V hK
  | map => exact short_map hK hV
  | multimap => exact short_multimap hK hV
  | unorderedSet => exact short_unorderedSet V hK
  | unorderedMultiset => exact short_unorderedMultiset V hK
  | unorderedMap => exact short_unorderedMap hK hV
  | unorderedMultimap => exact short_unorderedMultimap hK hV

/-- Non-vacuity: a map from integers to pointers. -/
example : simplifyStd c!"map<int,const A *,std::less<int>,std::allocator<std::pair<const int, const A *>>>" = c!"map<int,const A *>" :=
  C77_containers_partial .map (K := c!"int") (V := c!"const A *") ⟨by decide, by decide, by decide, by decide⟩ ⟨by decide, by decide, by decide, by decide⟩

end Binder
