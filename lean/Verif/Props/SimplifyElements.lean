import Verif.Props.SimplifyNested
import Verif.Spec.SimplifyElements

/-!
# C77: the short names of containers whose elements have template arguments
-/

namespace Binder

open Spec

/-! ## Brackets -/

theorem Spec.Bracketed.of_none {s : Str} (h1 : '<' ∉ s) (h2 : '>' ∉ s) : Bracketed s :=
  ⟨by rw [List.count_eq_zero.2 h1, List.count_eq_zero.2 h2], fun p hp => by
    rw [List.count_eq_zero.2 fun h => h2 (hp.subset h)]
    exact Nat.zero_le _⟩

theorem prefix_append_cases {p a b : Str} (h : p <+: a ++ b) : p <+: a ∨ ∃ q, p = a ++ q ∧ q <+: b := by
  obtain ⟨t, h⟩ := h
  rcases List.append_eq_append_iff.1 h with ⟨c, h1, h2⟩ | ⟨c, h1, h2⟩
  · exact .inl ⟨c, h1.symm⟩
  · exact .inr ⟨c, h1, t, h2.symm⟩

theorem Spec.Bracketed.append {a b : Str} (ha : Bracketed a) (hb : Bracketed b) : Bracketed (a ++ b) := by
  refine ⟨by rw [List.count_append, List.count_append, ha.1, hb.1], fun p hp => ?_⟩
  rcases prefix_append_cases hp with h | ⟨q, rfl, h⟩
  · exact ha.2 p h
  · have := hb.2 q h
    have := ha.1
    simp only [List.count_append]
    omega

theorem Spec.Bracketed.wrap {a : Str} (ha : Bracketed a) : Bracketed ('<' :: (a ++ c!">")) := by
  refine ⟨by simp [List.count_append, List.count_cons, ha.1], fun p hp => ?_⟩
  cases p with
  | nil => simp
  | cons x p =>
    have hx := List.cons_prefix_cons.1 hp
    rw [hx.1]
    rcases prefix_append_cases hx.2 with h | ⟨q, rfl, h⟩
    · have := ha.2 p h
      simp only [List.count_cons]
      simp
      omega
    · have := h.length_le
      have h4 := ha.1
      have : q.count '>' ≤ q.length := List.count_le_length
      simp only [List.length_cons, List.length_nil] at *
      simp only [List.count_cons, List.count_append]
      simp
      omega

/-! ## Words before `<` -/

/-- Where a word stands in a text whose first part ends with a character that is not in the word. -/
theorem occ_append {u X Y P Q : Str} {x : Char} (hx : x ∉ u) (h : X ++ [x] ++ Y = P ++ '<' :: Q) (hs : u <:+ P) :
    (∃ Q', X ++ [x] = P ++ '<' :: Q' ∧ Q = Q' ++ Y) ∨ ∃ P', P = X ++ [x] ++ P' ∧ Y = P' ++ '<' :: Q ∧ u <:+ P' := by
  rcases split_at h with h | ⟨α, rfl, h2⟩
  · exact .inl h
  · refine .inr ⟨α, rfl, h2, ?_⟩
    rcases List.suffix_or_suffix_of_suffix hs (List.suffix_append (X ++ [x]) α) with h3 | ⟨t, rfl⟩
    · exact h3
    · rcases List.eq_nil_or_concat t with rfl | ⟨t', y, rfl⟩
      · simp
      · exfalso
        obtain ⟨r, hr⟩ := hs
        rw [← List.append_assoc] at hr
        have := List.append_cancel_right hr
        rw [List.concat_eq_append, ← List.append_assoc] at this
        have := (List.cons.inj (List.append_inj' this rfl).2).1
        exact hx (by rw [← this]; simp)

theorem occ_infix {u P Q : Str} (hs : u <:+ P) : u ++ c!"<" <:+: P ++ '<' :: Q := by
  obtain ⟨t, rfl⟩ := hs
  exact ⟨t, Q, by simp⟩

theorem no_occ_append {u X Y : Str} {x : Char} (hx : x ∉ u) (hX : ¬ u ++ c!"<" <:+: X ++ [x]) (hY : ¬ u ++ c!"<" <:+: Y) :
    ¬ u ++ c!"<" <:+: X ++ [x] ++ Y := by
  rintro ⟨p, q, e⟩
  rcases occ_append (P := p ++ u) (Q := q) hx (by rw [← e]; simp) (List.suffix_append _ _) with ⟨Q', h, -⟩ | ⟨P', -, h, hs⟩
  · exact hX (h ▸ occ_infix (List.suffix_append _ _))
  · exact hY (h ▸ occ_infix hs)

/-- A text without `<` behind another adds no word. -/
theorem no_occ_tail {u X w : Str} (hX : ¬ u ++ c!"<" <:+: X) (hw : '<' ∉ w) : ¬ u ++ c!"<" <:+: X ++ w := by
  rintro ⟨p, q, e⟩
  have e' : X ++ w = (p ++ u) ++ '<' :: q := by rw [← e]; simp
  rcases split_at e' with ⟨β, h, -⟩ | ⟨α, -, h⟩
  · exact hX (h ▸ occ_infix (List.suffix_append _ _))
  · exact hw (by rw [h]; simp)

/-- The only place of a word. -/
theorem occ_unique {u X L P Q : Str} {x : Char} (hx : x ∉ u) (hl : '<' ∉ u) (hc : '<' ∉ u) (hX : ¬ u ++ c!"<" <:+: X ++ [x]) (hL : ¬ u ++ c!"<" <:+: L)
    (h : X ++ [x] ++ (u ++ '<' :: L) = P ++ '<' :: Q) (hs : u <:+ P) : P = X ++ [x] ++ u ∧ Q = L := by
  rcases occ_append hx h hs with ⟨Q', h, -⟩ | ⟨P', rfl, h, hs'⟩
  · exact absurd (h ▸ occ_infix hs) hX
  · have h' : (u ++ c!"<") ++ L = P' ++ '<' :: Q := by rw [← h]; simp
    rcases occ_append hl h' hs' with ⟨Q', h1, h2⟩ | ⟨P'', -, h1, hs''⟩
    · rcases split_at h1 with ⟨β, h3, -⟩ | ⟨α, rfl, h3⟩
      · exact absurd (by rw [h3]; simp) hc
      · cases α with
        | nil =>
          simp only [List.nil_append, List.cons.injEq, true_and] at h3
          subst h3
          exact ⟨by simp, by simpa using h2⟩
        | cons y α => simp at h3
    · exact absurd (h1 ▸ occ_infix hs'') hL

/-! ## The patterns -/

/-- A match in a text whose brackets match begins with the first word. -/
theorem starts {c M before u G : Str} (hc : '<' ∉ c) (hc2 : '>' ∉ c) (hM : Bracketed M) (hu : '<' ∉ u) (h : before ++ u ++ c!"<" ++ G = c ++ c!"<" ++ M)
    (hu2 : '>' ∉ u) (hG : G.count '>' ≤ G.count '<') : before ++ u = c ∧ G = M := by
  have hcnt := congrArg (List.count '<') h
  have hcnt2 := congrArg (List.count '>') h
  have h1 := hM.1
  simp only [List.count_append, List.count_eq_zero.2 hc, List.count_eq_zero.2 hc2, List.count_eq_zero.2 hu, List.count_eq_zero.2 hu2] at hcnt hcnt2
  have hb : before <+: (c ++ c!"<") ++ M := ⟨u ++ (c!"<" ++ G), by rw [← h]; simp⟩
  rcases prefix_append_cases hb with hb | ⟨q, rfl, hq⟩
  · have hbl : '<' ∉ before := by
      intro hmem
      obtain ⟨t, ht⟩ := hb
      obtain ⟨x, y, rfl⟩ := List.append_of_mem hmem
      have h2 : (x ++ '<' :: (y ++ t)) = c ++ '<' :: [] := by rw [← ht]; simp
      have hxl : '<' ∉ x := by
        intro hx
        have := congrArg (List.count '<') h2
        have h3 := List.count_pos_iff.2 hx
        simp only [List.count_append, List.count_cons, List.count_eq_zero.2 hc] at this
        simp at this
        omega
      have h3 := (split_first hxl hc h2).2
      have : y = [] ∧ t = [] := by simpa using h3
      obtain ⟨rfl, rfl⟩ := this
      -- `before` would be `c<`, and the text behind it has one more closing bracket
      have h4 : x = c := (split_first hxl hc h2).1
      subst h4
      have h5 : u ++ (c!"<" ++ G) = M := by
        have : (x ++ c!"<") ++ (u ++ (c!"<" ++ G)) = (x ++ c!"<") ++ M := by rw [← h]; simp
        exact List.append_cancel_left this
      have h6 := hM.1
      rw [← h5] at h6
      simp only [List.count_append, List.count_eq_zero.2 hu, List.count_eq_zero.2 hu2] at h6
      simp at h6
      omega
    have h2 : (before ++ u) ++ '<' :: G = c ++ '<' :: M := by simpa using h
    exact split_first (by simp [hbl, hu]) hc h2
  · exfalso
    have := hM.2 q hq
    simp only [List.count_append, List.count_eq_zero.2 hc, List.count_eq_zero.2 hc2] at hcnt hcnt2
    simp at hcnt hcnt2
    omega

/-- A container with an allocator, and nothing else that asks for one. -/
structure OneAllocator (c M T : Str) : Prop where
  word : '<' ∉ c
  word2 : '>' ∉ c
  args : Bracketed M
  element : Bracketed T
  noArgs : ¬ c!"std::allocator" ++ c!"<" <:+: c ++ c!"<" ++ M
  noElement : ¬ c!"std::allocator" ++ c!"<" <:+: T

/-- The text of such a container. -/
def oneText (c M T : Str) : Str := c ++ c!"<" ++ M ++ c!",std::allocator<" ++ T ++ c!">>"

theorem OneAllocator.split {c M T x y : Str} (h : OneAllocator c M T) (e : oneText c M T = x ++ c!"std::allocator<" ++ y) :
    x = c ++ c!"<" ++ M ++ c!"," ∧ y = T ++ c!">>" := by
  have := occ_unique (u := c!"std::allocator") (X := c ++ c!"<" ++ M) (x := ',') (L := T ++ c!">>") (P := x ++ c!"std::allocator") (Q := y) (by decide) (by decide)
    (by decide) (no_occ_tail h.noArgs (by decide)) (no_occ_tail h.noElement (by decide)) (by
      have e' := e
      unfold oneText at e'
      simp only [List.append_assoc, List.cons_append, List.nil_append] at e' ⊢
      exact e') (List.suffix_append _ _)
  exact ⟨List.append_cancel_right this.1, this.2⟩

/-- A text in front of at least two closing brackets lies in the element type. -/
theorem inside {T g r after : Str} (h : g ++ r ++ after = T ++ c!">>") (hr : 2 ≤ r.length) : g <+: T := by
  have h1 : g <+: T ++ c!">>" := ⟨r ++ after, by rw [← h]; simp⟩
  refine List.prefix_of_prefix_length_le h1 (List.prefix_append _ _) ?_
  have := congrArg List.length h
  simp only [List.length_append, List.length_cons, List.length_nil] at this
  omega

theorem append_comma_spaces {a b s : Str} (hs : Spaces s) (h : a ++ c!"," ++ s = b ++ c!",") : s = [] ∧ a = b := by
  rcases List.eq_nil_or_concat s with rfl | ⟨s', x, rfl⟩
  · exact ⟨rfl, by simpa using h⟩
  · exfalso
    rw [List.concat_eq_append, ← List.append_assoc] at h
    have := (List.cons.inj (List.append_inj' h rfl).2).1
    exact absurd (hs x (by simp)) (by rw [this]; decide)

/-- What a sequence with default arguments can be in such a text. -/
theorem OneAllocator.sequence {c M T c' T' b1 b2 b3 before after : Str} (h : OneAllocator c M T) (hc : '<' ∉ c') (hc2 : '>' ∉ c') (h1 : Spaces b1)
    (e : oneText c M T = before ++ (c' ++ c!"<" ++ T' ++ c!"," ++ b1 ++ c!"std::allocator<" ++ T' ++ b2 ++ c!">" ++ b3 ++ c!">") ++ after) :
    before ++ c' = c ∧ T' = M ∧ M ++ (b2 ++ c!">" ++ b3 ++ c!">") ++ after = T ++ c!">>" := by
  obtain ⟨e1, e2⟩ := h.split (x := before ++ c' ++ c!"<" ++ T' ++ c!"," ++ b1) (y := T' ++ (b2 ++ c!">" ++ b3 ++ c!">") ++ after) (by rw [e]; simp)
  obtain ⟨-, e1⟩ := append_comma_spaces h1 e1
  have hg : T' <+: T := inside e2 (by simp; omega)
  obtain ⟨h4, rfl⟩ := starts h.word h.word2 h.args hc e1 hc2 (h.element.2 T' hg)
  exact ⟨h4, rfl, e2⟩

theorem close_close {b2 b3 after : Str} (h2 : Spaces b2) (h3 : Spaces b3) (h : b2 ++ c!">" ++ b3 ++ c!">" ++ after = c!">>") : after = [] := by
  have e : b2 ++ '>' :: (b3 ++ '>' :: after) = [] ++ '>' :: ([] ++ '>' :: []) := by simpa using h
  obtain ⟨-, -, e⟩ := spaces_split h2 spaces_nil (by decide) (by decide) e
  exact (spaces_split h3 spaces_nil (by decide) (by decide) e).2.2


/-- A word and its bracket. -/
theorem no_occ_word {u c : Str} (h1 : '<' ∉ c) (h3 : ¬ u <:+ c) : ¬ u ++ c!"<" <:+: c ++ c!"<" := by
  rintro ⟨p, q, e⟩
  have e' : c ++ c!"<" = (p ++ u) ++ '<' :: q := by rw [← e]; simp
  rcases split_at e' with ⟨β, h, -⟩ | ⟨α, h, h'⟩
  · exact h1 (by rw [h]; simp)
  · cases α with
    | nil => exact h3 ⟨p, by simpa using h⟩
    | cons y α => simp at h'

/-- Two texts with the same text before the same closing bracket and blanks. -/
theorem spaces_before_close {K K' b : Str} (hb : Spaces b) (hK : K.getLast? ≠ some ' ') (h : K' ++ b ++ c!">" = K ++ c!">") : K' = K := by
  have h := List.append_cancel_right h
  rcases List.eq_nil_or_concat b with rfl | ⟨b', x, rfl⟩
  · simpa using h
  · exfalso
    apply hK
    rw [← h, List.concat_eq_append, ← List.append_assoc, List.getLast?_append]
    simp [hb x (by simp)]

/-- A family of containers: `A` are the arguments, `K` is the key, `u` the class of the first default argument, `R` what follows the key there. -/
structure Family (u c A K R : Str) : Prop where
  word : '<' ∉ c
  word2 : '>' ∉ c
  comma : ',' ∉ u
  lt : '<' ∉ u
  args : Bracketed A
  noArgs : ¬ u ++ c!"<" <:+: c ++ c!"<" ++ A
  noKey : ¬ u ++ c!"<" <:+: K ++ R

/-- The first default argument can only stand where it does. -/
theorem Family.split {u c A K R x y : Str} (h : Family u c A K R) (e : c ++ c!"<" ++ A ++ c!"," ++ u ++ c!"<" ++ K ++ R = x ++ u ++ c!"<" ++ y) :
    x = c ++ c!"<" ++ A ++ c!"," ∧ y = K ++ R := by
  have := occ_unique (u := u) (X := c ++ c!"<" ++ A) (x := ',') (L := K ++ R) (P := x ++ u) (Q := y) h.comma h.lt h.lt (no_occ_tail h.noArgs (by decide))
    h.noKey (by simpa using e) (List.suffix_append _ _)
  exact ⟨List.append_cancel_right this.1, this.2⟩

/-- The families as texts. -/
def lessArgs (A K : Str) : Str := A ++ c!",std::less<" ++ K ++ c!">"
def hashArgs (A K : Str) : Str := A ++ c!",std::hash<" ++ K ++ c!">,std::equal_to<" ++ K ++ c!">"

/-- A set with default arguments in a text with one `std::less`. -/
theorem less_set {c A K T T' b1 b2 b3 b4 b5 before after : Str} (hone : OneAllocator c (lessArgs A K) T)
    (hfam : Family c!"std::less" c A K (c!">,std::allocator<" ++ T ++ c!">>")) (hK : K.getLast? ≠ some ' ') (h1 : Spaces b1) (h2 : Spaces b2) (h3 : Spaces b3)
    (e : oneText c (lessArgs A K) T = before ++ (c!"set<" ++ T' ++ c!"," ++ b1 ++ c!"std::less<" ++ T' ++ b2 ++ c!">," ++ b3 ++ c!"std::allocator<" ++ T' ++ b4 ++
      c!">" ++ b5 ++ c!">") ++ after) :
    T' = K ∧ before ++ c!"set" ++ c!"<" ++ K = c ++ c!"<" ++ A ∧ K ++ (b4 ++ c!">" ++ b5 ++ c!">") ++ after = T ++ c!">>" := by
  obtain ⟨e1, e2⟩ := hfam.split (x := before ++ c!"set<" ++ T' ++ c!"," ++ b1)
    (y := T' ++ b2 ++ c!">," ++ b3 ++ c!"std::allocator<" ++ T' ++ b4 ++ c!">" ++ b5 ++ c!">" ++ after) (by
      simp only [oneText, lessArgs, List.append_assoc, List.cons_append, List.nil_append] at e ⊢
      exact e)
  obtain ⟨e3, e4⟩ := hone.split (x := before ++ c!"set<" ++ T' ++ c!"," ++ b1 ++ c!"std::less<" ++ T' ++ b2 ++ c!">," ++ b3)
    (y := T' ++ (b4 ++ c!">" ++ b5 ++ c!">") ++ after) (by rw [e]; simp)
  obtain ⟨-, e5⟩ := append_comma_spaces h1 e1
  rw [e1] at e3
  have e6 : T' ++ b2 ++ c!">" ++ c!"," ++ b3 = K ++ c!">" ++ c!"," := by
    apply List.append_cancel_left (as := c ++ c!"<" ++ A ++ c!",std::less<")
    simpa [lessArgs] using e3
  obtain ⟨-, e7⟩ := append_comma_spaces h3 e6
  have := spaces_before_close h2 hK e7
  subst this
  exact ⟨rfl, by simpa using e5, e4⟩

/-- A map with default arguments in a text with one `std::less`. -/
theorem less_map {c A K T c' K' V' b1 b2 b3 b4 b5 b6 before after : Str} (hone : OneAllocator c (lessArgs A K) T)
    (hfam : Family c!"std::less" c A K (c!">,std::allocator<" ++ T ++ c!">>")) (hK : K.getLast? ≠ some ' ') (h1 : Spaces b1) (h2 : Spaces b2) (h3 : Spaces b3)
    (e : oneText c (lessArgs A K) T = before ++ (c' ++ c!"<" ++ K' ++ c!"," ++ V' ++ c!"," ++ b1 ++ c!"std::less<" ++ K' ++ b2 ++ c!">," ++ b3 ++
      c!"std::allocator<std::pair<const " ++ K' ++ c!", " ++ V' ++ b4 ++ c!">" ++ b5 ++ c!">" ++ b6 ++ c!">") ++ after) :
    K' = K ∧ before ++ c' ++ c!"<" ++ (K ++ c!"," ++ V') = c ++ c!"<" ++ A ∧
      c!"std::pair<const " ++ K ++ c!", " ++ V' ++ (b4 ++ c!">" ++ b5 ++ c!">" ++ b6 ++ c!">") ++ after = T ++ c!">>" := by
  obtain ⟨e1, e2⟩ := hfam.split (x := before ++ c' ++ c!"<" ++ K' ++ c!"," ++ V' ++ c!"," ++ b1)
    (y := K' ++ b2 ++ c!">," ++ b3 ++ c!"std::allocator<std::pair<const " ++ K' ++ c!", " ++ V' ++ b4 ++ c!">" ++ b5 ++ c!">" ++ b6 ++ c!">" ++ after) (by
      simp only [oneText, lessArgs, List.append_assoc, List.cons_append, List.nil_append] at e ⊢
      exact e)
  obtain ⟨e3, e4⟩ := hone.split (x := before ++ c' ++ c!"<" ++ K' ++ c!"," ++ V' ++ c!"," ++ b1 ++ c!"std::less<" ++ K' ++ b2 ++ c!">," ++ b3)
    (y := c!"std::pair<const " ++ K' ++ c!", " ++ V' ++ (b4 ++ c!">" ++ b5 ++ c!">" ++ b6 ++ c!">") ++ after) (by rw [e]; simp)
  obtain ⟨-, e5⟩ := append_comma_spaces h1 e1
  rw [e1] at e3
  have e6 : K' ++ b2 ++ c!">" ++ c!"," ++ b3 = K ++ c!">" ++ c!"," := by
    apply List.append_cancel_left (as := c ++ c!"<" ++ A ++ c!",std::less<")
    simpa [lessArgs] using e3
  obtain ⟨-, e7⟩ := append_comma_spaces h3 e6
  have := spaces_before_close h2 hK e7
  subst this
  exact ⟨rfl, by simpa using e5, e4⟩

/-- An unordered set with default arguments in a text with one `std::hash`. -/
theorem hash_set {c A K T c' T' b1 b2 b3 b4 b5 before after : Str} (hone : OneAllocator c (hashArgs A K) T)
    (hfam : Family c!"std::hash" c A K (c!">,std::equal_to<" ++ K ++ c!">,std::allocator<" ++ T ++ c!">>"))
    (heq : ¬ c!"std::equal_to" ++ c!"<" <:+: K) (h1 : Spaces b1) (h3 : Spaces b3)
    (e : oneText c (hashArgs A K) T = before ++ (c' ++ c!"<" ++ T' ++ c!"," ++ b1 ++ c!"std::hash<" ++ T' ++ c!">," ++ b2 ++ c!"std::equal_to<" ++ T' ++ c!">," ++ b3 ++
        c!"std::allocator<" ++ T' ++ b4 ++ c!">" ++ b5 ++ c!">") ++ after) :
    T' = K ∧ before ++ c' ++ c!"<" ++ K = c ++ c!"<" ++ A ∧ K ++ (b4 ++ c!">" ++ b5 ++ c!">") ++ after = T ++ c!">>" := by
  obtain ⟨e1, e2⟩ := hfam.split (x := before ++ c' ++ c!"<" ++ T' ++ c!"," ++ b1)
    (y := T' ++ c!">," ++ b2 ++ c!"std::equal_to<" ++ T' ++ c!">," ++ b3 ++ c!"std::allocator<" ++ T' ++ b4 ++ c!">" ++ b5 ++ c!">" ++ after) (by
      simp only [oneText, hashArgs, List.append_assoc, List.cons_append, List.nil_append] at e ⊢
      exact e)
  obtain ⟨e3, e4⟩ := hone.split (x := before ++ c' ++ c!"<" ++ T' ++ c!"," ++ b1 ++ c!"std::hash<" ++ T' ++ c!">," ++ b2 ++ c!"std::equal_to<" ++ T' ++ c!">," ++ b3)
    (y := T' ++ (b4 ++ c!">" ++ b5 ++ c!">") ++ after) (by rw [e]; simp)
  obtain ⟨-, e5⟩ := append_comma_spaces h1 e1
  rw [e1] at e3
  have e6 : T' ++ c!">," ++ b2 ++ c!"std::equal_to<" ++ T' ++ c!">" ++ c!"," ++ b3 = K ++ c!">,std::equal_to<" ++ K ++ c!">" ++ c!"," := by
    apply List.append_cancel_left (as := c ++ c!"<" ++ A ++ c!",std::hash<")
    simpa [hashArgs] using e3
  obtain ⟨-, e7⟩ := append_comma_spaces h3 e6
  have := occ_unique (u := c!"std::equal_to") (X := K ++ c!">") (x := ',') (L := K ++ c!">") (P := T' ++ c!">," ++ b2 ++ c!"std::equal_to") (Q := T' ++ c!">")
    (by decide) (by decide) (by decide) (by rw [List.append_assoc]; exact no_occ_tail heq (by decide)) (no_occ_tail heq (by decide)) (by
      simp only [List.append_assoc, List.cons_append, List.nil_append] at e7 ⊢
      exact e7.symm) (List.suffix_append _ _)
  have := List.append_cancel_right this.2
  subst this
  exact ⟨rfl, e5, e4⟩

/-- An unordered map with default arguments in a text with one `std::hash`. -/
theorem hash_map {c A K T c' K' V' b0 b1 b2 b3 b4 b5 b6 b7 before after : Str} (hone : OneAllocator c (hashArgs A K) T)
    (hfam : Family c!"std::hash" c A K (c!">,std::equal_to<" ++ K ++ c!">,std::allocator<" ++ T ++ c!">>"))
    (heq : ¬ c!"std::equal_to" ++ c!"<" <:+: K) (hK : K.getLast? ≠ some ' ') (h3 : Spaces b3) (h4 : Spaces b4)
    (e : oneText c (hashArgs A K) T = before ++ (c' ++ c!"<" ++ K' ++ c!"," ++ b0 ++ V' ++ c!",std::hash<" ++ K' ++ b1 ++ c!">," ++ b2 ++ c!"std::equal_to<" ++ K' ++
        b3 ++ c!">," ++ b4 ++ c!"std::allocator<std::pair<const " ++ K' ++ c!", " ++ V' ++ b5 ++ c!">" ++ b6 ++ c!">" ++ b7 ++ c!">") ++ after) :
    K' = K ∧ before ++ c' ++ c!"<" ++ (K ++ c!"," ++ (b0 ++ V')) = c ++ c!"<" ++ A ∧
      c!"std::pair<const " ++ K ++ c!", " ++ V' ++ (b5 ++ c!">" ++ b6 ++ c!">" ++ b7 ++ c!">") ++ after = T ++ c!">>" := by
  obtain ⟨e1, e2⟩ := hfam.split (x := before ++ c' ++ c!"<" ++ K' ++ c!"," ++ b0 ++ V' ++ c!",")
    (y := K' ++ b1 ++ c!">," ++ b2 ++ c!"std::equal_to<" ++ K' ++ b3 ++ c!">," ++ b4 ++ c!"std::allocator<std::pair<const " ++ K' ++ c!", " ++ V' ++ b5 ++ c!">" ++
      b6 ++ c!">" ++ b7 ++ c!">" ++ after) (by
      simp only [oneText, hashArgs, List.append_assoc, List.cons_append, List.nil_append] at e ⊢
      exact e)
  obtain ⟨e3, e4⟩ := hone.split (x := before ++ c' ++ c!"<" ++ K' ++ c!"," ++ b0 ++ V' ++ c!"," ++ c!"std::hash<" ++ K' ++ b1 ++ c!">," ++ b2 ++ c!"std::equal_to<" ++ K' ++
      b3 ++ c!">," ++ b4)
    (y := c!"std::pair<const " ++ K' ++ c!", " ++ V' ++ (b5 ++ c!">" ++ b6 ++ c!">" ++ b7 ++ c!">") ++ after) (by rw [e]; simp)
  have e5 := List.append_cancel_right e1
  rw [e1] at e3
  have e6 : K' ++ b1 ++ c!">," ++ b2 ++ c!"std::equal_to<" ++ K' ++ b3 ++ c!">" ++ c!"," ++ b4 = K ++ c!">,std::equal_to<" ++ K ++ c!">" ++ c!"," := by
    apply List.append_cancel_left (as := c ++ c!"<" ++ A ++ c!",std::hash<")
    simpa [hashArgs] using e3
  obtain ⟨-, e7⟩ := append_comma_spaces h4 e6
  have := occ_unique (u := c!"std::equal_to") (X := K ++ c!">") (x := ',') (L := K ++ c!">") (P := K' ++ b1 ++ c!">," ++ b2 ++ c!"std::equal_to") (Q := K' ++ b3 ++ c!">")
    (by decide) (by decide) (by decide) (by rw [List.append_assoc]; exact no_occ_tail heq (by decide)) (no_occ_tail heq (by decide)) (by
      simp only [List.append_assoc, List.cons_append, List.nil_append] at e7 ⊢
      exact e7.symm) (List.suffix_append _ _)
  have := spaces_before_close h3 hK this.2
  subst this
  exact ⟨rfl, by simpa using e5, e4⟩

/-- A text of one segment that ends with a separator, and the rest. -/
theorem no_occ_seg {u X Y : Str} (hX : ¬ u ++ c!"<" <:+: X) (hx : ∃ x, X.getLast? = some x ∧ x ∉ u) (hY : ¬ u ++ c!"<" <:+: Y) : ¬ u ++ c!"<" <:+: X ++ Y := by
  obtain ⟨x, h1, h2⟩ := hx
  obtain ⟨X', rfl⟩ := List.getLast?_eq_some_iff.1 h1
  exact no_occ_append h2 hX hY

/-- The end of a short text. -/
theorem short_end {before c' c K V : Str} (hc' : '<' ∉ c') (hc : '<' ∉ c) (h : before ++ c' ++ c!"<" ++ (K ++ c!"," ++ V) = c ++ c!"<" ++ K) : False := by
  have hlen := congrArg List.length h
  simp only [List.length_append, List.length_cons, List.length_nil] at hlen
  have hb : before <+: c := by
    have h1 : before <+: c ++ c!"<" ++ K := ⟨c' ++ c!"<" ++ (K ++ c!"," ++ V), by rw [← h]; simp⟩
    exact List.prefix_of_prefix_length_le h1 ⟨c!"<" ++ K, by simp⟩ (by omega)
  have h2 : (before ++ c') ++ '<' :: (K ++ c!"," ++ V) = c ++ '<' :: K := by simpa using h
  have h3 := congrArg List.length (split_first (by simp only [List.mem_append, not_or]; exact ⟨fun h => hc (hb.subset h), hc'⟩) hc h2).2
  simp only [List.length_append, List.length_cons, List.length_nil] at h3
  omega

theorem close_three {b4 b5 b6 after : Str} (h4 : Spaces b4) (h5 : Spaces b5) (h6 : Spaces b6) (h : b4 ++ c!">" ++ b5 ++ c!">" ++ b6 ++ c!">" ++ after = c!">>>") :
    after = [] := by
  have e : b4 ++ '>' :: (b5 ++ c!">" ++ b6 ++ c!">" ++ after) = [] ++ '>' :: c!">>" := by simpa using h
  obtain ⟨-, -, e⟩ := spaces_split h4 spaces_nil (by decide) (by decide) e
  exact close_close h5 h6 e

/-- The value of a map. -/
theorem pair_value {K V V' r after : Str} (h : c!"std::pair<const " ++ K ++ c!", " ++ V' ++ r ++ after = c!"std::pair<const " ++ K ++ c!", " ++ V ++ c!">" ++ c!">>")
    (hr : 3 ≤ r.length) : V' <+: V := by
  have h1 : V' ++ (r ++ after) = V ++ c!">>>" := by
    apply List.append_cancel_left (as := c!"std::pair<const " ++ K ++ c!", ")
    simpa using h
  have h2 : V' <+: V ++ c!">>>" := ⟨_, h1⟩
  refine List.prefix_of_prefix_length_le h2 (List.prefix_append _ _) ?_
  have := congrArg List.length h1
  simp only [List.length_append, List.length_cons, List.length_nil] at this
  omega

/-! ## One pass -/

theorem simplify_of_pass {s r : Str} (h0 : stdTypedefMap.lookup s = none) (hs : s ≠ []) (hpass : simplifyPass s = r) (h3 : NoMatch r) : simplifyStd s = r := by
  have hpass2 : simplifyPass r = r := foldl_none _ h3
  have hloop : ∀ n m, simplifyLoopF (n + 2) r m = some r := by
    intro n m
    by_cases hm : r.length = m
    · simp [simplifyLoopF, hm]
    · simp [simplifyLoopF, hm, hpass2]
  unfold simplifyStd simplifyStdF
  rw [h0]
  simp only
  cases s with
  | nil => exact absurd rfl hs
  | cons c s =>
    have : (simplifyLoopF ((c :: s).length + 2) (c :: s) 0) = simplifyLoopF (s.length + 2) r (c :: s).length := by
      rw [← hpass, show (c :: s).length + 2 = (s.length + 2) + 1 by simp]
      rw [simplifyLoopF]
      simp
    rw [this, hloop]
    rfl

/-- What the patterns match, in a text for which the pattern of `multiset` is of no use. -/
theorem fits_default {i : Nat} {s : Str} (h6 : i < 6 ∨ ¬ c!"std::less<" <:+: s) {q : List Pat × List Sub} (hq : q ∈ regexMap.take (i + 1)) {before w after : Str}
    {gs : List Str} (e : s = before ++ w ++ after) (hf : Fits q.1 [] w gs) : DefaultArguments w (expand gs q.2) := by
  rcases regex_default (List.mem_of_mem_take hq) hf with h | ⟨T, L, A, b1, b2, -, -, hw, -⟩
  · exact h
  · exfalso
    rcases h6 with h6 | h6
    · have hrow : ∀ q ∈ regexMap.take 6, ∃ l ∈ [c!"list<", c!"deque<", c!"vector<", c!"set<", c!"forward_list<", c!"map<"],
          q.1.head? = some (.lit l) ∧ ¬ l <+: c!"multiset<" ∧ ¬ c!"multiset<" <+: l := by decide +kernel
      obtain ⟨l, -, h1, h2, h3⟩ := hrow q (List.take_subset_take_left _ (by omega) hq)
      obtain ⟨p, rs⟩ := q
      cases p with
      | nil => simp at h1
      | cons x p =>
        simp only [List.head?_cons, Option.some.injEq] at h1
        subst h1
        obtain ⟨t, ht, -⟩ := fits_lit.1 hf
        have h4 : l <+: w := ⟨t, ht.symm⟩
        have h5 : c!"multiset<" <+: w := ⟨T ++ c!"," ++ b1 ++ c!"std::less<" ++ L ++ c!">," ++ b2 ++ c!"std::allocator<" ++ A ++ c!">>", by rw [hw]; simp⟩
        rcases List.prefix_or_prefix_of_prefix h4 h5 with h | h
        · exact h2 h
        · exact h3 h
    · exact h6 ⟨before ++ c!"multiset<" ++ T ++ c!"," ++ b1, L ++ c!">," ++ b2 ++ c!"std::allocator<" ++ A ++ c!">>" ++ after, by rw [e, hw]; simp⟩

/-- If all matches lead to the same text, and there is one, the result is that text. -/
theorem unique_pass {s r : Str} (h0 : stdTypedefMap.lookup s = none) (hs : s ≠ []) (i : Nat) (hi : i < regexMap.length)
    (h6 : i < 6 ∨ ¬ c!"std::less<" <:+: s)
    (hU : ∀ before w after short, s = before ++ w ++ after → DefaultArguments w short → before ++ short ++ after = r)
    {b0 w0 a0 : Str} {g0 : List Str} (e0 : s = b0 ++ w0 ++ a0) (hf0 : Fits regexMap[i].1 [] w0 g0) (hr : ¬ c!"std::allocator" ++ c!"<" <:+: r) : simplifyStd s = r := by
  have hn := noMatch_of_allocator hr
  refine simplify_of_pass h0 hs ?_ hn
  have hsub : ∀ q ∈ regexMap.take (i + 1), findMatch q.1 s = none ∨ subst q s = r := by
    intro q hq
    cases hm : findMatch q.1 s with
    | none => exact .inl rfl
    | some m =>
      obtain ⟨before, gs, after⟩ := m
      obtain ⟨w, e, hf, -⟩ := (C77_leftmost_longest _ _).2 _ _ _ hm
      refine .inr ?_
      unfold subst
      rw [hm]
      exact hU _ _ _ _ e (fits_default h6 hq e hf)
  have hfold : ∀ l : List (List Pat × List Sub), (∀ q ∈ l, findMatch q.1 s = none ∨ subst q s = r) → (∀ q ∈ l, findMatch q.1 r = none) →
      l.foldl (fun s p => subst p s) s = s ∧ (∀ q ∈ l, findMatch q.1 s = none) ∨ l.foldl (fun s p => subst p s) s = r := by
    intro l
    induction l with
    | nil => exact fun _ _ => .inl ⟨rfl, fun _ h => by cases h⟩
    | cons q l ih =>
      intro h1 h2
      rw [List.foldl_cons]
      rcases h1 q List.mem_cons_self with h | h
      · have : subst q s = s := by unfold subst; rw [h]
        rw [this]
        rcases ih (fun q hq => h1 q (List.mem_cons_of_mem _ hq)) (fun q hq => h2 q (List.mem_cons_of_mem _ hq)) with ⟨h3, h4⟩ | h3
        · exact .inl ⟨h3, fun q' hq' => by rcases List.mem_cons.1 hq' with rfl | hq'; exact h; exact h4 q' hq'⟩
        · exact .inr h3
      · rw [h, foldl_none l fun q hq => h2 q (List.mem_cons_of_mem _ hq)]
        exact .inr rfl
  unfold simplifyPass
  rw [← List.take_append_drop (i + 1) regexMap, List.foldl_append]
  rcases hfold _ hsub (fun q hq => hn q (List.mem_of_mem_take hq)) with ⟨-, h⟩ | h
  · have hmem : regexMap[i] ∈ regexMap.take (i + 1) := by
      rw [List.take_succ_eq_append_getElem hi]
      exact List.mem_append_right _ List.mem_cons_self
    exact absurd hf0 (findMatch_none.1 (h _ hmem) _ _ _ _ e0)
  · rw [h]
    exact foldl_none _ fun q hq => hn q (List.mem_of_mem_drop hq)

/-! ## The containers -/

/-- The pairs of a map. -/
def pairText (K V : Str) : Str := c!"std::pair<const " ++ K ++ c!", " ++ V ++ c!">"

/-- A class of a default argument. -/
structure DefaultWord (u : Str) : Prop where
  lt : '<' ∉ u
  gt : '>' ∉ u
  comma : ',' ∉ u
  space : ' ' ∉ u

theorem no_occ_comma {u K Y : Str} (hu : DefaultWord u) (hK : ¬ u ++ c!"<" <:+: K) (hY : ¬ u ++ c!"<" <:+: Y) : ¬ u ++ c!"<" <:+: K ++ c!"," ++ Y :=
  no_occ_append hu.comma (no_occ_tail hK (by decide)) hY

theorem no_occ_pair {u K V : Str} (hu : DefaultWord u) (hK : ¬ u ++ c!"<" <:+: K) (hV : ¬ u ++ c!"<" <:+: V) (hp : ¬ u ++ c!"<" <:+: c!"std::pair<const ") :
    ¬ u ++ c!"<" <:+: pairText K V := by
  have e : pairText K V = c!"std::pair<const " ++ ((K ++ c!", ") ++ (V ++ c!">")) := by simp [pairText]
  rw [e]
  exact no_occ_seg hp ⟨' ', by decide, hu.space⟩ (no_occ_seg (no_occ_tail hK (by decide)) ⟨' ', by simp, hu.space⟩ (no_occ_tail hV (by decide)))

theorem no_occ_less {u A K : Str} (hu : DefaultWord u) (hA : ¬ u ++ c!"<" <:+: A) (hK : ¬ u ++ c!"<" <:+: K) (hp : ¬ u ++ c!"<" <:+: c!"std::less<") :
    ¬ u ++ c!"<" <:+: lessArgs A K := by
  have e : lessArgs A K = A ++ c!"," ++ (c!"std::less<" ++ (K ++ c!">")) := by simp [lessArgs]
  rw [e]
  exact no_occ_comma hu hA (no_occ_seg hp ⟨'<', by decide, hu.lt⟩ (no_occ_tail hK (by decide)))

theorem no_occ_hash {u A K : Str} (hu : DefaultWord u) (hA : ¬ u ++ c!"<" <:+: A) (hK : ¬ u ++ c!"<" <:+: K) (hp : ¬ u ++ c!"<" <:+: c!"std::hash<")
    (hp2 : ¬ u ++ c!"<" <:+: c!"std::equal_to<") : ¬ u ++ c!"<" <:+: hashArgs A K := by
  have e : hashArgs A K = A ++ c!"," ++ (c!"std::hash<" ++ ((K ++ c!">,") ++ (c!"std::equal_to<" ++ (K ++ c!">")))) := by simp [hashArgs]
  rw [e]
  exact no_occ_comma hu hA (no_occ_seg hp ⟨'<', by decide, hu.lt⟩ (no_occ_seg (no_occ_tail hK (by decide)) ⟨',', by simp, hu.comma⟩
    (no_occ_seg hp2 ⟨'<', by decide, hu.lt⟩ (no_occ_tail hK (by decide)))))

theorem no_occ_begin {u c A : Str} (hu : DefaultWord u) (hc : '<' ∉ c) (hs : ¬ u <:+ c) (hA : ¬ u ++ c!"<" <:+: A) : ¬ u ++ c!"<" <:+: c ++ c!"<" ++ A :=
  no_occ_append hu.lt (no_occ_word hc hs) hA

theorem no_occ_text {u c M T : Str} (hu : DefaultWord u) (hc : '<' ∉ c) (hs : ¬ u <:+ c) (hM : ¬ u ++ c!"<" <:+: M) (hT : ¬ u ++ c!"<" <:+: T)
    (hp : ¬ u ++ c!"<" <:+: c!"std::allocator<") : ¬ u ++ c!"<" <:+: oneText c M T := by
  have e : oneText c M T = c ++ c!"<" ++ (M ++ c!"," ++ (c!"std::allocator<" ++ (T ++ c!">>"))) := by simp [oneText]
  rw [e]
  exact no_occ_begin hu hc hs (no_occ_comma hu hM (no_occ_seg hp ⟨'<', by decide, hu.lt⟩ (no_occ_tail hT (by decide))))

theorem bracketed_less {A K : Str} (hA : Bracketed A) (hK : Bracketed K) : Bracketed (lessArgs A K) := by
  have e : lessArgs A K = A ++ (c!",std::less" ++ '<' :: (K ++ c!">")) := by simp [lessArgs]
  rw [e]
  exact hA.append ((Spec.Bracketed.of_none (by decide) (by decide)).append hK.wrap)

theorem bracketed_hash {A K : Str} (hA : Bracketed A) (hK : Bracketed K) : Bracketed (hashArgs A K) := by
  have e : hashArgs A K = A ++ (c!",std::hash" ++ '<' :: (K ++ c!">")) ++ (c!",std::equal_to" ++ '<' :: (K ++ c!">")) := by simp [hashArgs]
  rw [e]
  exact (hA.append ((Spec.Bracketed.of_none (by decide) (by decide)).append hK.wrap)).append ((Spec.Bracketed.of_none (by decide) (by decide)).append hK.wrap)

theorem bracketed_comma {K V : Str} (hK : Bracketed K) (hV : Bracketed V) : Bracketed (K ++ c!"," ++ V) :=
  (hK.append (Spec.Bracketed.of_none (by decide) (by decide))).append hV

theorem bracketed_pair {K V : Str} (hK : Bracketed K) (hV : Bracketed V) : Bracketed (pairText K V) := by
  have e : pairText K V = c!"std::pair" ++ '<' :: ((c!"const " ++ K ++ c!", " ++ V) ++ c!">") := by simp [pairText]
  rw [e]
  exact (Spec.Bracketed.of_none (by decide) (by decide)).append
    ((((Spec.Bracketed.of_none (by decide) (by decide)).append hK).append (Spec.Bracketed.of_none (by decide) (by decide))).append hV).wrap

theorem allocator_word : DefaultWord c!"std::allocator" := ⟨by decide, by decide, by decide, by decide⟩
theorem less_word : DefaultWord c!"std::less" := ⟨by decide, by decide, by decide, by decide⟩
theorem hash_word : DefaultWord c!"std::hash" := ⟨by decide, by decide, by decide, by decide⟩

/-- The words of the sequence containers. -/
theorem sequence_words {c : Str} (h : c = c!"list" ∨ c = c!"deque" ∨ c = c!"vector" ∨ c = c!"forward_list") : '<' ∉ c ∧ '>' ∉ c := by
  rcases h with rfl | rfl | rfl | rfl <;> exact ⟨by decide, by decide⟩

theorem map_words {c : Str} (h : c = c!"map" ∨ c = c!"multimap") : '<' ∉ c ∧ '>' ∉ c := by
  rcases h with rfl | rfl <;> exact ⟨by decide, by decide⟩

theorem unorderedSet_words {c : Str} (h : c = c!"unordered_set" ∨ c = c!"unordered_multiset") : '<' ∉ c ∧ '>' ∉ c := by
  rcases h with rfl | rfl <;> exact ⟨by decide, by decide⟩

theorem unorderedMap_words {c : Str} (h : c = c!"unordered_map" ∨ c = c!"unordered_multimap") : '<' ∉ c ∧ '>' ∉ c := by
  rcases h with rfl | rfl <;> exact ⟨by decide, by decide⟩

/-- No sequence container. -/
def NotSequence (c : Str) : Prop := ∀ c' ∈ [c!"list", c!"deque", c!"vector", c!"forward_list"], ¬ c' <:+ c

theorem NotSequence.out {c c' before : Str} (h : NotSequence c) (hc : c' = c!"list" ∨ c' = c!"deque" ∨ c' = c!"vector" ∨ c' = c!"forward_list")
    (e : before ++ c' = c) : False := by
  rcases hc with rfl | rfl | rfl | rfl <;> exact h _ (by simp) ⟨before, e⟩

/-- All matches in the text of a sequence container. -/
theorem unique_sequence {c K before w after short : Str} (hone : OneAllocator c K K) (nl : ¬ c!"std::less" ++ c!"<" <:+: oneText c K K)
    (nh : ¬ c!"std::hash" ++ c!"<" <:+: oneText c K K) (e : oneText c K K = before ++ w ++ after) (hd : DefaultArguments w short) :
    before ++ short ++ after = c ++ c!"<" ++ K ++ c!">" := by
  cases hd with
  | sequence c' T b1 b2 b3 hc h1 h2 h3 =>
    obtain ⟨h4, rfl, h5⟩ := hone.sequence (sequence_words hc).1 (sequence_words hc).2 h1 e
    have := close_close h2 h3 (List.append_cancel_left (as := T) (by simpa using h5))
    subst this
    rw [← h4]
    simp
  | set T b1 b2 b3 b4 b5 =>
    exact absurd ⟨before ++ c!"set<" ++ T ++ c!"," ++ b1, T ++ b2 ++ c!">," ++ b3 ++ c!"std::allocator<" ++ T ++ b4 ++ c!">" ++ b5 ++ c!">" ++ after, by rw [e]; simp⟩ nl
  | map c' K' V' b1 b2 b3 b4 b5 b6 =>
    exact absurd ⟨before ++ c' ++ c!"<" ++ K' ++ c!"," ++ V' ++ c!"," ++ b1, K' ++ b2 ++ c!">," ++ b3 ++ c!"std::allocator<std::pair<const " ++ K' ++ c!", " ++ V' ++
      b4 ++ c!">" ++ b5 ++ c!">" ++ b6 ++ c!">" ++ after, by rw [e]; simp⟩ nl
  | unorderedSet c' T b1 b2 b3 b4 b5 =>
    exact absurd ⟨before ++ c' ++ c!"<" ++ T ++ c!"," ++ b1, T ++ c!">," ++ b2 ++ c!"std::equal_to<" ++ T ++ c!">," ++ b3 ++ c!"std::allocator<" ++ T ++ b4 ++ c!">" ++
      b5 ++ c!">" ++ after, by rw [e]; simp⟩ nh
  | unorderedMap c' K' V' b0 b1 b2 b3 b4 b5 b6 b7 =>
    exact absurd ⟨before ++ c' ++ c!"<" ++ K' ++ c!"," ++ b0 ++ V' ++ c!",", K' ++ b1 ++ c!">," ++ b2 ++ c!"std::equal_to<" ++ K' ++ b3 ++ c!">," ++ b4 ++
      c!"std::allocator<std::pair<const " ++ K' ++ c!", " ++ V' ++ b5 ++ c!">" ++ b6 ++ c!">" ++ b7 ++ c!">" ++ after, by rw [e]; simp⟩ nh

/-- All matches in the text of an ordered set. -/
theorem unique_set {c K before w after short : Str} (hone : OneAllocator c (lessArgs K K) K)
    (hfam : Family c!"std::less" c K K (c!">,std::allocator<" ++ K ++ c!">>")) (hK : K.getLast? ≠ some ' ') (hc : NotSequence c)
    (nh : ¬ c!"std::hash" ++ c!"<" <:+: oneText c (lessArgs K K) K) (e : oneText c (lessArgs K K) K = before ++ w ++ after) (hd : DefaultArguments w short) :
    before ++ short ++ after = c ++ c!"<" ++ K ++ c!">" := by
  cases hd with
  | sequence c' T b1 b2 b3 hc' h1 h2 h3 =>
    exact (hc.out hc' (hone.sequence (sequence_words hc').1 (sequence_words hc').2 h1 e).1).elim
  | set T b1 b2 b3 b4 b5 h1 h2 h3 h4 h5 =>
    obtain ⟨rfl, e1, e2⟩ := less_set hone hfam hK h1 h2 h3 e
    have := close_close h4 h5 (List.append_cancel_left (as := T) (by simpa using e2))
    subst this
    have e1 := List.append_cancel_right e1
    rw [← e1]
    simp
  | map c' K' V' b1 b2 b3 b4 b5 b6 hc' h1 h2 h3 =>
    obtain ⟨rfl, e1, -⟩ := less_map hone hfam hK h1 h2 h3 e
    exact (short_end (map_words hc').1 hone.word e1).elim
  | unorderedSet c' T b1 b2 b3 b4 b5 =>
    exact absurd ⟨before ++ c' ++ c!"<" ++ T ++ c!"," ++ b1, T ++ c!">," ++ b2 ++ c!"std::equal_to<" ++ T ++ c!">," ++ b3 ++ c!"std::allocator<" ++ T ++ b4 ++ c!">" ++
      b5 ++ c!">" ++ after, by rw [e]; simp⟩ nh
  | unorderedMap c' K' V' b0 b1 b2 b3 b4 b5 b6 b7 =>
    exact absurd ⟨before ++ c' ++ c!"<" ++ K' ++ c!"," ++ b0 ++ V' ++ c!",", K' ++ b1 ++ c!">," ++ b2 ++ c!"std::equal_to<" ++ K' ++ b3 ++ c!">," ++ b4 ++
      c!"std::allocator<std::pair<const " ++ K' ++ c!", " ++ V' ++ b5 ++ c!">" ++ b6 ++ c!">" ++ b7 ++ c!">" ++ after, by rw [e]; simp⟩ nh

/-- The key alone is not all arguments of a map. -/
theorem key_alone {c c' K V before : Str} (hc : '<' ∉ c) (hc2 : '>' ∉ c) (hK : Bracketed K) (hV : Bracketed V) (hc' : '<' ∉ c') (hc2' : '>' ∉ c')
    (e : before ++ c' ++ c!"<" ++ K = c ++ c!"<" ++ (K ++ c!"," ++ V)) : False := by
  have := congrArg List.length (starts hc hc2 (bracketed_comma hK hV) hc' e hc2' (Nat.le_of_eq hK.1.symm)).2
  simp only [List.length_append, List.length_cons, List.length_nil] at this
  omega

/-- The arguments of a map, if the value is cut. -/
theorem map_arguments {c c' K V V' before : Str} (hc : '<' ∉ c) (hc2 : '>' ∉ c) (hK : Bracketed K) (hV : Bracketed V) (hc' : '<' ∉ c') (hc2' : '>' ∉ c')
    (hv : V'.count '>' ≤ V'.count '<') (e : before ++ c' ++ c!"<" ++ (K ++ c!"," ++ V') = c ++ c!"<" ++ (K ++ c!"," ++ V)) : before ++ c' = c ∧ V' = V := by
  obtain ⟨h1, h2⟩ := starts hc hc2 (bracketed_comma hK hV) hc' e hc2' (by
    have := hK.1
    simp only [List.count_append]
    have h3 : c!",".count '<' = 0 := by decide
    have h4 : c!",".count '>' = 0 := by decide
    omega)
  exact ⟨h1, List.append_cancel_left h2⟩

/-- All matches in the text of an ordered map. -/
theorem unique_map {c K V before w after short : Str} (bK : Bracketed K) (bV : Bracketed V) (hone : OneAllocator c (lessArgs (K ++ c!"," ++ V) K) (pairText K V))
    (hfam : Family c!"std::less" c (K ++ c!"," ++ V) K (c!">,std::allocator<" ++ pairText K V ++ c!">>")) (hK : K.getLast? ≠ some ' ') (hc : NotSequence c)
    (nh : ¬ c!"std::hash" ++ c!"<" <:+: oneText c (lessArgs (K ++ c!"," ++ V) K) (pairText K V))
    (e : oneText c (lessArgs (K ++ c!"," ++ V) K) (pairText K V) = before ++ w ++ after) (hd : DefaultArguments w short) :
    before ++ short ++ after = c ++ c!"<" ++ (K ++ c!"," ++ V) ++ c!">" := by
  cases hd with
  | sequence c' T b1 b2 b3 hc' h1 h2 h3 =>
    exact (hc.out hc' (hone.sequence (sequence_words hc').1 (sequence_words hc').2 h1 e).1).elim
  | set T b1 b2 b3 b4 b5 h1 h2 h3 h4 h5 =>
    obtain ⟨rfl, e1, -⟩ := less_set hone hfam hK h1 h2 h3 e
    exact (key_alone hone.word hone.word2 bK bV (by decide) (by decide) e1).elim
  | map c' K' V' b1 b2 b3 b4 b5 b6 hc' h1 h2 h3 h4 h5 h6 =>
    obtain ⟨rfl, e1, e2⟩ := less_map hone hfam hK h1 h2 h3 e
    obtain ⟨h7, rfl⟩ := map_arguments hone.word hone.word2 bK bV (map_words hc').1 (map_words hc').2
      (bV.2 _ (pair_value (r := b4 ++ c!">" ++ b5 ++ c!">" ++ b6 ++ c!">") e2 (by simp; omega))) e1
    have := close_three h4 h5 h6 (after := after) (List.append_cancel_left (as := c!"std::pair<const " ++ K' ++ c!", " ++ V') (by simpa [pairText] using e2))
    subst this
    rw [← h7]
    simp
  | unorderedSet c' T b1 b2 b3 b4 b5 =>
    exact absurd ⟨before ++ c' ++ c!"<" ++ T ++ c!"," ++ b1, T ++ c!">," ++ b2 ++ c!"std::equal_to<" ++ T ++ c!">," ++ b3 ++ c!"std::allocator<" ++ T ++ b4 ++ c!">" ++
      b5 ++ c!">" ++ after, by rw [e]; simp⟩ nh
  | unorderedMap c' K' V' b0 b1 b2 b3 b4 b5 b6 b7 =>
    exact absurd ⟨before ++ c' ++ c!"<" ++ K' ++ c!"," ++ b0 ++ V' ++ c!",", K' ++ b1 ++ c!">," ++ b2 ++ c!"std::equal_to<" ++ K' ++ b3 ++ c!">," ++ b4 ++
      c!"std::allocator<std::pair<const " ++ K' ++ c!", " ++ V' ++ b5 ++ c!">" ++ b6 ++ c!">" ++ b7 ++ c!">" ++ after, by rw [e]; simp⟩ nh

/-- All matches in the text of an unordered set. -/
theorem unique_unorderedSet {c K before w after short : Str} (hone : OneAllocator c (hashArgs K K) K)
    (hfam : Family c!"std::hash" c K K (c!">,std::equal_to<" ++ K ++ c!">,std::allocator<" ++ K ++ c!">>")) (heq : ¬ c!"std::equal_to" ++ c!"<" <:+: K)
    (hK : K.getLast? ≠ some ' ') (hc : NotSequence c)
    (nl : ¬ c!"std::less" ++ c!"<" <:+: oneText c (hashArgs K K) K) (e : oneText c (hashArgs K K) K = before ++ w ++ after) (hd : DefaultArguments w short) :
    before ++ short ++ after = c ++ c!"<" ++ K ++ c!">" := by
  cases hd with
  | sequence c' T b1 b2 b3 hc' h1 h2 h3 =>
    exact (hc.out hc' (hone.sequence (sequence_words hc').1 (sequence_words hc').2 h1 e).1).elim
  | set T b1 b2 b3 b4 b5 =>
    exact absurd ⟨before ++ c!"set<" ++ T ++ c!"," ++ b1, T ++ b2 ++ c!">," ++ b3 ++ c!"std::allocator<" ++ T ++ b4 ++ c!">" ++ b5 ++ c!">" ++ after, by rw [e]; simp⟩ nl
  | map c' K' V' b1 b2 b3 b4 b5 b6 =>
    exact absurd ⟨before ++ c' ++ c!"<" ++ K' ++ c!"," ++ V' ++ c!"," ++ b1, K' ++ b2 ++ c!">," ++ b3 ++ c!"std::allocator<std::pair<const " ++ K' ++ c!", " ++ V' ++
      b4 ++ c!">" ++ b5 ++ c!">" ++ b6 ++ c!">" ++ after, by rw [e]; simp⟩ nl
  | unorderedSet c' T b1 b2 b3 b4 b5 hc' h1 h2 h3 h4 h5 =>
    obtain ⟨rfl, e1, e2⟩ := hash_set hone hfam heq h1 h3 e
    have := close_close h4 h5 (List.append_cancel_left (as := T) (by simpa using e2))
    subst this
    rw [show before ++ (c' ++ c!"<" ++ T ++ c!">") ++ [] = (before ++ c' ++ c!"<" ++ T) ++ c!">" by simp, e1]
  | unorderedMap c' K' V' b0 b1 b2 b3 b4 b5 b6 b7 hc' h0 h1 h2 h3 h4 =>
    obtain ⟨rfl, e1, -⟩ := hash_map hone hfam heq hK h3 h4 e
    exact (short_end (unorderedMap_words hc').1 hone.word e1).elim

/-- All matches in the text of an unordered map. -/
theorem unique_unorderedMap {c K V before w after short : Str} (bK : Bracketed K) (bV : Bracketed V)
    (hone : OneAllocator c (hashArgs (K ++ c!"," ++ V) K) (pairText K V))
    (hfam : Family c!"std::hash" c (K ++ c!"," ++ V) K (c!">,std::equal_to<" ++ K ++ c!">,std::allocator<" ++ pairText K V ++ c!">>"))
    (heq : ¬ c!"std::equal_to" ++ c!"<" <:+: K) (hK : K.getLast? ≠ some ' ') (hV : V.head? ≠ some ' ') (hc : NotSequence c)
    (nl : ¬ c!"std::less" ++ c!"<" <:+: oneText c (hashArgs (K ++ c!"," ++ V) K) (pairText K V))
    (e : oneText c (hashArgs (K ++ c!"," ++ V) K) (pairText K V) = before ++ w ++ after) (hd : DefaultArguments w short) :
    before ++ short ++ after = c ++ c!"<" ++ (K ++ c!"," ++ V) ++ c!">" := by
  cases hd with
  | sequence c' T b1 b2 b3 hc' h1 h2 h3 =>
    exact (hc.out hc' (hone.sequence (sequence_words hc').1 (sequence_words hc').2 h1 e).1).elim
  | set T b1 b2 b3 b4 b5 =>
    exact absurd ⟨before ++ c!"set<" ++ T ++ c!"," ++ b1, T ++ b2 ++ c!">," ++ b3 ++ c!"std::allocator<" ++ T ++ b4 ++ c!">" ++ b5 ++ c!">" ++ after, by rw [e]; simp⟩ nl
  | map c' K' V' b1 b2 b3 b4 b5 b6 =>
    exact absurd ⟨before ++ c' ++ c!"<" ++ K' ++ c!"," ++ V' ++ c!"," ++ b1, K' ++ b2 ++ c!">," ++ b3 ++ c!"std::allocator<std::pair<const " ++ K' ++ c!", " ++ V' ++
      b4 ++ c!">" ++ b5 ++ c!">" ++ b6 ++ c!">" ++ after, by rw [e]; simp⟩ nl
  | unorderedSet c' T b1 b2 b3 b4 b5 hc' h1 h2 h3 h4 h5 =>
    obtain ⟨rfl, e1, -⟩ := hash_set hone hfam heq h1 h3 e
    exact (key_alone hone.word hone.word2 bK bV (unorderedSet_words hc').1 (unorderedSet_words hc').2 e1).elim
  | unorderedMap c' K' V' b0 b1 b2 b3 b4 b5 b6 b7 hc' h0 h1 h2 h3 h4 h5 h6 h7 =>
    obtain ⟨rfl, e1, e2⟩ := hash_map hone hfam heq hK h3 h4 e
    have hp := bV.2 _ (pair_value (r := b5 ++ c!">" ++ b6 ++ c!">" ++ b7 ++ c!">") e2 (by simp; omega))
    have hsp : ∀ x, x ≠ ' ' → b0.count x = 0 := fun x hx => List.count_eq_zero.2 fun hm => hx (h0 x hm)
    obtain ⟨h8, hv⟩ := map_arguments hone.word hone.word2 bK bV (unorderedMap_words hc').1 (unorderedMap_words hc').2 (V' := b0 ++ V')
      (by rw [List.count_append, List.count_append, hsp _ (by decide), hsp _ (by decide)]; omega) e1
    have hb0 : b0 = [] := by
      cases b0 with
      | nil => rfl
      | cons x b0 => exact absurd (by rw [← hv]; simp [h0 x (by simp)]) hV
    subst hb0
    rw [List.nil_append] at hv
    subst hv
    have := close_three h5 h6 h7 (after := after) (List.append_cancel_left (as := c!"std::pair<const " ++ K' ++ c!", " ++ V') (by simpa [pairText] using e2))
    subst this
    rw [← h8]
    simp

/-- The word of a container. -/
def ContainerWord (c : Str) : Prop :=
  '<' ∉ c ∧ '>' ∉ c ∧ ¬ c!"std::allocator" <:+ c ∧ ¬ c!"std::less" <:+ c ∧ ¬ c!"std::hash" <:+ c ∧ c.head? ≠ some 'b' ∧ c ≠ []

instance (c : Str) : Decidable (ContainerWord c) := by unfold ContainerWord; infer_instance
instance (c : Str) : Decidable (NotSequence c) := by unfold NotSequence; infer_instance

theorem ContainerWord.text {c M T : Str} (h : ContainerWord c) : stdTypedefMap.lookup (oneText c M T) = none ∧ oneText c M T ≠ [] := by
  obtain ⟨-, -, -, -, -, h1, h2⟩ := h
  cases c with
  | nil => exact absurd rfl h2
  | cons x c => exact ⟨lookup_none (by simpa [oneText] using h1), by simp [oneText]⟩

theorem short_sequence {c K : Str} (hK : ElementName K) (hw : ContainerWord c) (i : Nat) (hi : i < regexMap.length) (h6 : i < 6) {b0 w0 a0 : Str} {g0 : List Str}
    (e0 : oneText c K K = b0 ++ w0 ++ a0) (hf0 : Fits regexMap[i].1 [] w0 g0) : simplifyStd (oneText c K K) = c ++ c!"<" ++ K ++ c!">" := by
  obtain ⟨h1, h2⟩ := hw.text (M := K) (T := K)
  obtain ⟨w1, w2, w3, w4, w5, -, -⟩ := hw
  refine unique_pass h1 h2 i hi (.inl h6) (fun before w after short => unique_sequence ⟨w1, w2, hK.brackets, hK.brackets, no_occ_begin allocator_word w1 w3 hK.allocator,
    hK.allocator⟩ (no_occ_text less_word w1 w4 hK.less hK.less (by decide)) (no_occ_text hash_word w1 w5 hK.hash hK.hash (by decide))) e0 hf0 ?_
  exact no_occ_tail (no_occ_begin allocator_word w1 w3 hK.allocator) (by decide)

theorem short_orderedSet {c K : Str} (hK : ElementName K) (hw : ContainerWord c) (hn : NotSequence c) (i : Nat) (hi : i < regexMap.length) (h6 : i < 6)
    {b0 w0 a0 : Str} {g0 : List Str} (e0 : oneText c (lessArgs K K) K = b0 ++ w0 ++ a0) (hf0 : Fits regexMap[i].1 [] w0 g0) :
    simplifyStd (oneText c (lessArgs K K) K) = c ++ c!"<" ++ K ++ c!">" := by
  obtain ⟨h1, h2⟩ := hw.text (M := lessArgs K K) (T := K)
  obtain ⟨w1, w2, w3, w4, w5, -, -⟩ := hw
  refine unique_pass h1 h2 i hi (.inl h6) (fun before w after short => unique_set
    ⟨w1, w2, bracketed_less hK.brackets hK.brackets, hK.brackets, no_occ_begin allocator_word w1 w3 (no_occ_less allocator_word hK.allocator hK.allocator (by decide)),
      hK.allocator⟩
    ⟨w1, w2, by decide, by decide, hK.brackets, no_occ_begin less_word w1 w4 hK.less, ?_⟩ hK.last hn
    (no_occ_text hash_word w1 w5 (no_occ_less hash_word hK.hash hK.hash (by decide)) hK.hash (by decide))) e0 hf0 ?_
  · have e : K ++ (c!">,std::allocator<" ++ K ++ c!">>") = (K ++ c!">,") ++ (c!"std::allocator<" ++ (K ++ c!">>")) := by simp
    rw [e]
    exact no_occ_seg (no_occ_tail hK.less (by decide)) ⟨',', by simp, by decide⟩ (no_occ_seg (by decide) ⟨'<', by decide, by decide⟩ (no_occ_tail hK.less (by decide)))
  · exact no_occ_tail (no_occ_begin allocator_word w1 w3 hK.allocator) (by decide)

theorem short_orderedMap {c K V : Str} (hK : ElementName K) (hV : ElementName V) (hw : ContainerWord c) (hn : NotSequence c) (i : Nat) (hi : i < regexMap.length)
    (h6 : i < 6) {b0 w0 a0 : Str} {g0 : List Str} (e0 : oneText c (lessArgs (K ++ c!"," ++ V) K) (pairText K V) = b0 ++ w0 ++ a0)
    (hf0 : Fits regexMap[i].1 [] w0 g0) :
    simplifyStd (oneText c (lessArgs (K ++ c!"," ++ V) K) (pairText K V)) = c ++ c!"<" ++ (K ++ c!"," ++ V) ++ c!">" := by
  obtain ⟨h1, h2⟩ := hw.text (M := lessArgs (K ++ c!"," ++ V) K) (T := pairText K V)
  obtain ⟨w1, w2, w3, w4, w5, -, -⟩ := hw
  have nA := no_occ_comma allocator_word hK.allocator hV.allocator
  have nL := no_occ_comma less_word hK.less hV.less
  have nH := no_occ_comma hash_word hK.hash hV.hash
  refine unique_pass h1 h2 i hi (.inl h6) (fun before w after short => unique_map hK.brackets hV.brackets
    ⟨w1, w2, bracketed_less (bracketed_comma hK.brackets hV.brackets) hK.brackets, bracketed_pair hK.brackets hV.brackets,
      no_occ_begin allocator_word w1 w3 (no_occ_less allocator_word nA hK.allocator (by decide)), no_occ_pair allocator_word hK.allocator hV.allocator (by decide)⟩
    ⟨w1, w2, by decide, by decide, bracketed_comma hK.brackets hV.brackets, no_occ_begin less_word w1 w4 nL, ?_⟩ hK.last hn
    (no_occ_text hash_word w1 w5 (no_occ_less hash_word nH hK.hash (by decide)) (no_occ_pair hash_word hK.hash hV.hash (by decide)) (by decide))) e0 hf0 ?_
  · have e : K ++ (c!">,std::allocator<" ++ pairText K V ++ c!">>") = (K ++ c!">,") ++ (c!"std::allocator<" ++ (pairText K V ++ c!">>")) := by simp
    rw [e]
    exact no_occ_seg (no_occ_tail hK.less (by decide)) ⟨',', by simp, by decide⟩
      (no_occ_seg (by decide) ⟨'<', by decide, by decide⟩ (no_occ_tail (no_occ_pair less_word hK.less hV.less (by decide)) (by decide)))
  · exact no_occ_tail (no_occ_begin allocator_word w1 w3 nA) (by decide)

theorem short_hashSet {c K : Str} (hK : ElementName K) (hw : ContainerWord c) (hn : NotSequence c) (i : Nat) (hi : i < regexMap.length)
    {b0 w0 a0 : Str} {g0 : List Str} (e0 : oneText c (hashArgs K K) K = b0 ++ w0 ++ a0) (hf0 : Fits regexMap[i].1 [] w0 g0) :
    simplifyStd (oneText c (hashArgs K K) K) = c ++ c!"<" ++ K ++ c!">" := by
  obtain ⟨h1, h2⟩ := hw.text (M := hashArgs K K) (T := K)
  obtain ⟨w1, w2, w3, w4, w5, -, -⟩ := hw
  have nl := no_occ_text less_word w1 w4 (no_occ_hash less_word hK.less hK.less (by decide) (by decide)) hK.less (by decide)
  refine unique_pass h1 h2 i hi (.inr nl) (fun before w after short => unique_unorderedSet
    ⟨w1, w2, bracketed_hash hK.brackets hK.brackets, hK.brackets,
      no_occ_begin allocator_word w1 w3 (no_occ_hash allocator_word hK.allocator hK.allocator (by decide) (by decide)), hK.allocator⟩
    ⟨w1, w2, by decide, by decide, hK.brackets, no_occ_begin hash_word w1 w5 hK.hash, ?_⟩ hK.equalTo hK.last hn nl) e0 hf0 ?_
  · have e : K ++ (c!">,std::equal_to<" ++ K ++ c!">,std::allocator<" ++ K ++ c!">>") =
        (K ++ c!">,") ++ (c!"std::equal_to<" ++ ((K ++ c!">,") ++ (c!"std::allocator<" ++ (K ++ c!">>")))) := by simp
    rw [e]
    exact no_occ_seg (no_occ_tail hK.hash (by decide)) ⟨',', by simp, by decide⟩ (no_occ_seg (by decide) ⟨'<', by decide, by decide⟩
      (no_occ_seg (no_occ_tail hK.hash (by decide)) ⟨',', by simp, by decide⟩ (no_occ_seg (by decide) ⟨'<', by decide, by decide⟩ (no_occ_tail hK.hash (by decide)))))
  · exact no_occ_tail (no_occ_begin allocator_word w1 w3 hK.allocator) (by decide)

theorem short_hashMap {c K V : Str} (hK : ElementName K) (hV : ElementName V) (hw : ContainerWord c) (hn : NotSequence c) (i : Nat) (hi : i < regexMap.length)
    {b0 w0 a0 : Str} {g0 : List Str} (e0 : oneText c (hashArgs (K ++ c!"," ++ V) K) (pairText K V) = b0 ++ w0 ++ a0) (hf0 : Fits regexMap[i].1 [] w0 g0) :
    simplifyStd (oneText c (hashArgs (K ++ c!"," ++ V) K) (pairText K V)) = c ++ c!"<" ++ (K ++ c!"," ++ V) ++ c!">" := by
  obtain ⟨h1, h2⟩ := hw.text (M := hashArgs (K ++ c!"," ++ V) K) (T := pairText K V)
  obtain ⟨w1, w2, w3, w4, w5, -, -⟩ := hw
  have nA := no_occ_comma allocator_word hK.allocator hV.allocator
  have nL := no_occ_comma less_word hK.less hV.less
  have nH := no_occ_comma hash_word hK.hash hV.hash
  have nl := no_occ_text less_word w1 w4 (no_occ_hash less_word nL hK.less (by decide) (by decide)) (no_occ_pair less_word hK.less hV.less (by decide)) (by decide)
  refine unique_pass h1 h2 i hi (.inr nl) (fun before w after short => unique_unorderedMap hK.brackets hV.brackets
    ⟨w1, w2, bracketed_hash (bracketed_comma hK.brackets hV.brackets) hK.brackets, bracketed_pair hK.brackets hV.brackets,
      no_occ_begin allocator_word w1 w3 (no_occ_hash allocator_word nA hK.allocator (by decide) (by decide)),
      no_occ_pair allocator_word hK.allocator hV.allocator (by decide)⟩
    ⟨w1, w2, by decide, by decide, bracketed_comma hK.brackets hV.brackets, no_occ_begin hash_word w1 w5 nH, ?_⟩ hK.equalTo hK.last hV.head hn nl) e0 hf0 ?_
  · have e : K ++ (c!">,std::equal_to<" ++ K ++ c!">,std::allocator<" ++ pairText K V ++ c!">>") =
        (K ++ c!">,") ++ (c!"std::equal_to<" ++ ((K ++ c!">,") ++ (c!"std::allocator<" ++ (pairText K V ++ c!">>")))) := by simp
    rw [e]
    exact no_occ_seg (no_occ_tail hK.hash (by decide)) ⟨',', by simp, by decide⟩ (no_occ_seg (by decide) ⟨'<', by decide, by decide⟩
      (no_occ_seg (no_occ_tail hK.hash (by decide)) ⟨',', by simp, by decide⟩ (no_occ_seg (by decide) ⟨'<', by decide, by decide⟩
        (no_occ_tail (no_occ_pair hash_word hK.hash hV.hash (by decide)) (by decide)))))
  · exact no_occ_tail (no_occ_begin allocator_word w1 w3 nA) (by decide)

/-- C77 (part): a standard container, written with all its default arguments, gets its short name, also if its element types have template arguments
themselves; what is missing are element types that are written with default arguments, but for those of `C77_nested_partial`. -/
theorem C77_elements_partial (c : Container) {K V : Str} (hK : ElementName K) (hV : ElementName V) :
    simplifyStd (c.word ++ c!"<" ++ c.allArguments K V ++ c!">") = c.word ++ c!"<" ++ c.arguments K V ++ c!">" := by
  cases c with
  | list =>
    have := short_sequence hK (c := c!"list") (by decide +kernel) 0 (by decide) (by decide) (b0 := c!"")
      (w0 := c!"list<" ++ K ++ c!",std::allocator<" ++ K ++ c!">>") (a0 := []) (g0 := [K]) (by simp [oneText, lessArgs, hashArgs, pairText])
      (fits_eq (.lit _ (.group K (.lit _ (.spaces [] spaces_nil (.lit _ (.back 1 (.spaces [] spaces_nil (.lit _ (.spaces [] spaces_nil (.lit _ (.done _)))))))))))
        (by simp))
    simpa [oneText, lessArgs, hashArgs, pairText, Container.word, Container.allArguments, Container.arguments] using this
  | deque =>
    have := short_sequence hK (c := c!"deque") (by decide +kernel) 1 (by decide) (by decide) (b0 := c!"")
      (w0 := c!"deque<" ++ K ++ c!",std::allocator<" ++ K ++ c!">>") (a0 := []) (g0 := [K]) (by simp [oneText, lessArgs, hashArgs, pairText])
      (fits_eq (.lit _ (.group K (.lit _ (.spaces [] spaces_nil (.lit _ (.back 1 (.spaces [] spaces_nil (.lit _ (.spaces [] spaces_nil (.lit _ (.done _)))))))))))
        (by simp))
    simpa [oneText, lessArgs, hashArgs, pairText, Container.word, Container.allArguments, Container.arguments] using this
  | vector =>
    have := short_sequence hK (c := c!"vector") (by decide +kernel) 2 (by decide) (by decide) (b0 := c!"")
      (w0 := c!"vector<" ++ K ++ c!",std::allocator<" ++ K ++ c!">>") (a0 := []) (g0 := [K]) (by simp [oneText, lessArgs, hashArgs, pairText])
      (fits_eq (.lit _ (.group K (.lit _ (.spaces [] spaces_nil (.lit _ (.back 1 (.spaces [] spaces_nil (.lit _ (.spaces [] spaces_nil (.lit _ (.done _)))))))))))
        (by simp))
    simpa [oneText, lessArgs, hashArgs, pairText, Container.word, Container.allArguments, Container.arguments] using this
  | forwardList =>
    have := short_sequence hK (c := c!"forward_list") (by decide +kernel) 0 (by decide) (by decide) (b0 := c!"forward_")
      (w0 := c!"list<" ++ K ++ c!",std::allocator<" ++ K ++ c!">>") (a0 := []) (g0 := [K]) (by simp [oneText, lessArgs, hashArgs, pairText])
      (fits_eq (.lit _ (.group K (.lit _ (.spaces [] spaces_nil (.lit _ (.back 1 (.spaces [] spaces_nil (.lit _ (.spaces [] spaces_nil (.lit _ (.done _)))))))))))
        (by simp))
    simpa [oneText, lessArgs, hashArgs, pairText, Container.word, Container.allArguments, Container.arguments] using this
  | set =>
    have := short_orderedSet hK (c := c!"set") (by decide +kernel) (by decide +kernel) 3 (by decide) (by decide) (b0 := c!"")
      (w0 := c!"set<" ++ K ++ c!",std::less<" ++ K ++ c!">,std::allocator<" ++ K ++ c!">>") (a0 := []) (g0 := [K]) (by simp [oneText, lessArgs, hashArgs, pairText])
      (fits_eq (.lit _ (.group K (.lit _ (.spaces [] spaces_nil (.lit _ (.back 1 (.spaces [] spaces_nil (.lit _ (.spaces [] spaces_nil (.lit _ (.back 1
        (.spaces [] spaces_nil (.lit _ (.spaces [] spaces_nil (.lit _ (.done _)))))))))))))))) (by simp))
    simpa [oneText, lessArgs, hashArgs, pairText, Container.word, Container.allArguments, Container.arguments] using this
  | multiset =>
    have := short_orderedSet hK (c := c!"multiset") (by decide +kernel) (by decide +kernel) 3 (by decide) (by decide) (b0 := c!"multi")
      (w0 := c!"set<" ++ K ++ c!",std::less<" ++ K ++ c!">,std::allocator<" ++ K ++ c!">>") (a0 := []) (g0 := [K]) (by simp [oneText, lessArgs, hashArgs, pairText])
      (fits_eq (.lit _ (.group K (.lit _ (.spaces [] spaces_nil (.lit _ (.back 1 (.spaces [] spaces_nil (.lit _ (.spaces [] spaces_nil (.lit _ (.back 1
        (.spaces [] spaces_nil (.lit _ (.spaces [] spaces_nil (.lit _ (.done _)))))))))))))))) (by simp))
    simpa [oneText, lessArgs, hashArgs, pairText, Container.word, Container.allArguments, Container.arguments] using this
  | map =>
    have := short_orderedMap hK hV (c := c!"map") (by decide +kernel) (by decide +kernel) 5 (by decide) (by decide) (b0 := c!"")
      (w0 := c!"map<" ++ K ++ c!"," ++ V ++ c!",std::less<" ++ K ++ c!">,std::allocator<std::pair<const " ++ K ++ c!", " ++ V ++ c!">>>") (a0 := []) (g0 := [K, V]) (by simp [oneText, lessArgs, hashArgs, pairText])
      (fits_eq (.lit _ (.group K (.lit _ (.group V (.lit _ (.spaces [] spaces_nil (.lit _ (.back 1 (.spaces [] spaces_nil (.lit _ (.spaces [] spaces_nil (.lit _ (.back 1 (.lit _
        (.back 2 (.spaces [] spaces_nil (.lit _ (.spaces [] spaces_nil (.lit _ (.spaces [] spaces_nil (.lit _ (.done _)))))))))))))))))))))) (by simp))
    simpa [oneText, lessArgs, hashArgs, pairText, Container.word, Container.allArguments, Container.arguments] using this
  | multimap =>
    have := short_orderedMap hK hV (c := c!"multimap") (by decide +kernel) (by decide +kernel) 5 (by decide) (by decide) (b0 := c!"multi")
      (w0 := c!"map<" ++ K ++ c!"," ++ V ++ c!",std::less<" ++ K ++ c!">,std::allocator<std::pair<const " ++ K ++ c!", " ++ V ++ c!">>>") (a0 := []) (g0 := [K, V]) (by simp [oneText, lessArgs, hashArgs, pairText])
      (fits_eq (.lit _ (.group K (.lit _ (.group V (.lit _ (.spaces [] spaces_nil (.lit _ (.back 1 (.spaces [] spaces_nil (.lit _ (.spaces [] spaces_nil (.lit _ (.back 1 (.lit _
        (.back 2 (.spaces [] spaces_nil (.lit _ (.spaces [] spaces_nil (.lit _ (.spaces [] spaces_nil (.lit _ (.done _)))))))))))))))))))))) (by simp))
    simpa [oneText, lessArgs, hashArgs, pairText, Container.word, Container.allArguments, Container.arguments] using this
  | unorderedSet =>
    have := short_hashSet hK (c := c!"unordered_set") (by decide +kernel) (by decide +kernel) 8 (by decide) (b0 := c!"")
      (w0 := c!"unordered_set<" ++ K ++ c!",std::hash<" ++ K ++ c!">,std::equal_to<" ++ K ++ c!">,std::allocator<" ++ K ++ c!">>") (a0 := []) (g0 := [K]) (by simp [oneText, lessArgs, hashArgs, pairText])
      (fits_eq (.lit _ (.group K (.lit _ (.spaces [] spaces_nil (.lit _ (.back 1 (.lit _ (.back 1 (.lit _ (.back 1 (.lit _ (.done _)))))))))))) (by simp))
    simpa [oneText, lessArgs, hashArgs, pairText, Container.word, Container.allArguments, Container.arguments] using this
  | unorderedMultiset =>
    have := short_hashSet hK (c := c!"unordered_multiset") (by decide +kernel) (by decide +kernel) 10 (by decide) (b0 := c!"")
      (w0 := c!"unordered_multiset<" ++ K ++ c!",std::hash<" ++ K ++ c!">,std::equal_to<" ++ K ++ c!">,std::allocator<" ++ K ++ c!">>") (a0 := []) (g0 := [K]) (by simp [oneText, lessArgs, hashArgs, pairText])
      (fits_eq (.lit _ (.group K (.lit _ (.spaces [] spaces_nil (.lit _ (.back 1 (.lit _ (.spaces [] spaces_nil (.lit _ (.back 1 (.lit _ (.spaces [] spaces_nil (.lit _ (.back 1
        (.spaces [] spaces_nil (.lit _ (.spaces [] spaces_nil (.lit _ (.done _))))))))))))))))))) (by simp))
    simpa [oneText, lessArgs, hashArgs, pairText, Container.word, Container.allArguments, Container.arguments] using this
  | unorderedMap =>
    have := short_hashMap hK hV (c := c!"unordered_map") (by decide +kernel) (by decide +kernel) 9 (by decide) (b0 := c!"")
      (w0 := c!"unordered_map<" ++ K ++ c!"," ++ V ++ c!",std::hash<" ++ K ++ c!">,std::equal_to<" ++ K ++ c!">,std::allocator<std::pair<const " ++ K ++ c!", " ++ V ++ c!">>>") (a0 := []) (g0 := [K, V]) (by simp [oneText, lessArgs, hashArgs, pairText])
      (fits_eq (.lit _ (.group K (.lit _ (.spaces [] spaces_nil (.group V (.lit _ (.back 1 (.lit _ (.back 1 (.lit _ (.back 1 (.lit _ (.back 2 (.spaces [] spaces_nil (.lit _
        (.spaces [] spaces_nil (.lit _ (.spaces [] spaces_nil (.lit _ (.done _)))))))))))))))))))) (by simp))
    simpa [oneText, lessArgs, hashArgs, pairText, Container.word, Container.allArguments, Container.arguments] using this
  | unorderedMultimap =>
    have := short_hashMap hK hV (c := c!"unordered_multimap") (by decide +kernel) (by decide +kernel) 11 (by decide) (b0 := c!"")
      (w0 := c!"unordered_multimap<" ++ K ++ c!"," ++ V ++ c!",std::hash<" ++ K ++ c!">,std::equal_to<" ++ K ++ c!">,std::allocator<std::pair<const " ++ K ++ c!", " ++ V ++ c!">>>") (a0 := []) (g0 := [K, V]) (by simp [oneText, lessArgs, hashArgs, pairText])
      (fits_eq (.lit _ (.group K (.lit _ (.spaces [] spaces_nil (.group V (.lit _ (.back 1 (.spaces [] spaces_nil (.lit _ (.spaces [] spaces_nil (.lit _ (.back 1 (.spaces []
        spaces_nil (.lit _ (.spaces [] spaces_nil (.lit _ (.back 1 (.lit _ (.back 2 (.spaces [] spaces_nil (.lit _ (.spaces [] spaces_nil (.lit _ (.spaces [] spaces_nil (.lit _
        (.done _)))))))))))))))))))))))))) (by simp))
    simpa [oneText, lessArgs, hashArgs, pairText, Container.word, Container.allArguments, Container.arguments] using this

/-- A name in which the brackets are counted at every place. -/
theorem bracketed_of_inits {s : Str} (h : s.count '<' = s.count '>' ∧ ∀ n ∈ List.range (s.length + 1), (s.take n).count '>' ≤ (s.take n).count '<') : Bracketed s := by
  refine ⟨h.1, fun p hp => ?_⟩
  have := h.2 p.length (by have := hp.length_le; simp; omega)
  rwa [List.prefix_iff_eq_take.1 hp]

/-- Non-vacuity: a map from pairs to vectors of instances of a class template. -/
example : simplifyStd c!"map<std::pair<int, B<char>>,std::vector<A<int>>,std::less<std::pair<int, B<char>>>,std::allocator<std::pair<const std::pair<int, B<char>>, std::vector<A<int>>>>>" =
    c!"map<std::pair<int, B<char>>,std::vector<A<int>>>" :=
  C77_elements_partial .map (K := c!"std::pair<int, B<char>>") (V := c!"std::vector<A<int>>")
    ⟨bracketed_of_inits (by decide +kernel), by decide +kernel, by decide +kernel, by decide +kernel, by decide +kernel, by decide, by decide⟩
    ⟨bracketed_of_inits (by decide +kernel), by decide +kernel, by decide +kernel, by decide +kernel, by decide +kernel, by decide, by decide⟩

end Binder
