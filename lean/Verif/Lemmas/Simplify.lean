import Verif.Spec.Simplify

/-!
# Lemmas about the regular expressions of `simplify_std_class_name`
-/

namespace Binder

open Spec

theorem firstSome_some {α : Type} {f : Nat → Option α} {n : Nat} {a : α} (h : firstSome f n = some a) :
    ∃ k, k ≤ n ∧ f k = some a ∧ ∀ j, k < j → j ≤ n → f j = none := by
  induction n with
  | zero => exact ⟨0, Nat.le_refl _, h, fun j h1 h2 => by omega⟩
  | succ n ih =>
    simp only [firstSome] at h
    split at h
    · rename_i b hb
      cases h
      exact ⟨n + 1, Nat.le_refl _, hb, fun j h1 h2 => by omega⟩
    · rename_i hn
      obtain ⟨k, h1, h2, h3⟩ := ih h
      refine ⟨k, by omega, h2, fun j h4 h5 => ?_⟩
      by_cases e : j = n + 1
      · rw [e]; exact hn
      · exact h3 j h4 (by omega)

theorem firstSome_none {α : Type} {f : Nat → Option α} {n : Nat} : firstSome f n = none ↔ ∀ k, k ≤ n → f k = none := by
  induction n with
  | zero =>
    refine ⟨fun h k hk => ?_, fun h => h 0 (Nat.le_refl _)⟩
    obtain rfl : k = 0 := by omega
    exact h
  | succ n ih =>
    simp only [firstSome]
    constructor
    · intro h k hk
      split at h
      · cases h
      · rename_i hn
        by_cases e : k = n + 1
        · rw [e]; exact hn
        · exact ih.1 h k (by omega)
    · intro h
      rw [h (n + 1) (Nat.le_refl _)]
      exact ih.2 fun k hk => h k (by omega)

theorem leadingSpaces_spec (s : Str) : ∃ t, s = List.replicate (leadingSpaces s) ' ' ++ t := by
  fun_induction leadingSpaces s with
  | case1 s ih => obtain ⟨t, ht⟩ := ih; exact ⟨t, by rw [List.replicate_succ, List.cons_append, ← ht]⟩
  | case2 s => exact ⟨s, rfl⟩

theorem spaces_eq {b : Str} (h : Spaces b) : b = List.replicate b.length ' ' := List.eq_replicate_of_mem h

theorem spaces_le {b s : Str} (h : Spaces b) : b.length ≤ leadingSpaces (b ++ s) := by
  rw [spaces_eq h]
  generalize b.length = n
  simp only [List.length_replicate]
  induction n with
  | zero => exact Nat.zero_le _
  | succ n ih => rw [List.replicate_succ, List.cons_append]; simp only [leadingSpaces]; omega

theorem spaces_take {s : Str} {k : Nat} (h : k ≤ leadingSpaces s) : Spaces (s.take k) := by
  obtain ⟨t, ht⟩ := leadingSpaces_spec s
  intro c hc
  rw [ht, List.take_append_of_le_length (by simpa using h)] at hc
  exact List.eq_of_mem_replicate (List.mem_of_mem_take hc)

/-- What `matchWhole` finds is a match. -/
theorem matchWhole_fits {ps : List Pat} {gs gs' : List Str} {s : Str} (h : matchWhole ps gs s = some gs') : Fits ps gs s gs' := by
  induction ps generalizing gs s with
  | nil =>
    simp only [matchWhole] at h
    split at h
    · rename_i e; cases h; subst e; exact .done _
    · cases h
  | cons p ps ih =>
    cases p with
    | lit l =>
      simp only [matchWhole] at h
      split at h
      · rename_i hp
        obtain ⟨t, rfl⟩ := List.isPrefixOf_iff_prefix.1 hp
        rw [List.drop_left] at h
        exact .lit l (ih h)
      · cases h
    | back n =>
      simp only [matchWhole] at h
      split at h
      · rename_i hp
        obtain ⟨t, ht⟩ := List.isPrefixOf_iff_prefix.1 hp
        rw [← ht, List.drop_left] at h
        rw [← ht]
        exact .back n (ih h)
      · cases h
    | spaces =>
      simp only [matchWhole] at h
      obtain ⟨k, h1, h2, -⟩ := firstSome_some h
      have := Fits.spaces (s.take k) (spaces_take h1) (ih h2)
      rwa [List.take_append_drop] at this
    | group =>
      simp only [matchWhole] at h
      obtain ⟨k, h1, h2, -⟩ := firstSome_some h
      have := Fits.group (s.take k) (ih h2)
      rwa [List.take_append_drop] at this

/-- If `matchWhole` finds nothing, there is no match. -/
theorem not_fits {ps : List Pat} {gs gs' : List Str} {s : Str} (h : matchWhole ps gs s = none) : ¬ Fits ps gs s gs' := by
  intro hf
  induction hf with
  | done gs => simp [matchWhole] at h
  | lit l _ ih =>
    simp only [matchWhole] at h
    rw [if_pos (List.isPrefixOf_iff_prefix.2 (List.prefix_append _ _)), List.drop_left] at h
    exact ih h
  | back n _ ih =>
    simp only [matchWhole] at h
    rw [if_pos (List.isPrefixOf_iff_prefix.2 (List.prefix_append _ _)), List.drop_left] at h
    exact ih h
  | spaces b hb _ ih =>
    simp only [matchWhole] at h
    have := firstSome_none.1 h b.length (spaces_le hb)
    rw [List.drop_left] at this
    exact ih this
  | group g _ ih =>
    simp only [matchWhole] at h
    have := firstSome_none.1 h g.length (by simp)
    rw [List.drop_left, List.take_left] at this
    exact ih this

/-- A match at the beginning of a text, the longest one. -/
theorem matchHere_some {ps : List Pat} {s after : Str} {gs : List Str} (h : matchHere ps s = some (gs, after)) :
    ∃ w, s = w ++ after ∧ Fits ps [] w gs ∧ ∀ w' after' gs', s = w' ++ after' → w.length < w'.length → ¬ Fits ps [] w' gs' := by
  obtain ⟨k, h1, h2, h3⟩ := firstSome_some h
  obtain ⟨gs0, h4, h5⟩ := Option.map_eq_some_iff.1 h2
  cases h5
  refine ⟨s.take k, (List.take_append_drop _ _).symm, matchWhole_fits h4, fun w' after' gs' e hl hf => ?_⟩
  have hk : k < w'.length := by rwa [List.length_take, Nat.min_eq_left h1] at hl
  have := h3 w'.length hk (by rw [e]; simp)
  rw [Option.map_eq_none_iff] at this
  rw [e, List.take_left] at this
  exact not_fits this hf

theorem matchHere_none {ps : List Pat} {s : Str} (h : matchHere ps s = none) : ∀ w after gs, s = w ++ after → ¬ Fits ps [] w gs := by
  intro w after gs e hf
  have := firstSome_none.1 h w.length (by rw [e]; simp)
  rw [Option.map_eq_none_iff] at this
  rw [e, List.take_left] at this
  exact not_fits this hf

/-- The leftmost match. -/
theorem findMatch_some {ps : List Pat} {s before after : Str} {gs : List Str} (h : findMatch ps s = some (before, gs, after)) :
    ∃ w, s = before ++ w ++ after ∧ Fits ps [] w gs ∧
      (∀ w' after' gs', s = before ++ w' ++ after' → w.length < w'.length → ¬ Fits ps [] w' gs') ∧
      (∀ before' w' after' gs', s = before' ++ w' ++ after' → before'.length < before.length → ¬ Fits ps [] w' gs') := by
  induction s generalizing before with
  | nil =>
    simp only [findMatch] at h
    obtain ⟨⟨gs0, a0⟩, h1, h2⟩ := Option.map_eq_some_iff.1 h
    cases h2
    obtain ⟨w, e, hf, hl⟩ := matchHere_some h1
    exact ⟨w, by simpa using e, hf, fun w' after' gs' e' => hl w' after' gs' (by simpa using e'), fun _ _ _ _ _ hlt => by simp at hlt⟩
  | cons c s ih =>
    simp only [findMatch] at h
    split at h
    · rename_i m hm
      cases h
      obtain ⟨w, e, hf, hl⟩ := matchHere_some hm
      exact ⟨w, by simpa using e, hf, fun w' after' gs' e' => hl w' after' gs' (by simpa using e'), fun _ _ _ _ _ hlt => by simp at hlt⟩
    · rename_i hm
      obtain ⟨⟨b0, gs0, a0⟩, h1, h2⟩ := Option.map_eq_some_iff.1 h
      cases h2
      obtain ⟨w, e, hf, hl, hb⟩ := ih h1
      refine ⟨w, by rw [e]; simp, hf, fun w' after' gs' e' => hl w' after' gs' (by simpa using e'), fun b' w' a' gs' e' hlt hf' => ?_⟩
      cases b' with
      | nil => exact matchHere_none hm w' a' gs' (by simpa using e') hf'
      | cons d b' =>
        simp only [List.cons_append, List.cons.injEq] at e'
        exact hb b' w' a' gs' (by simpa using e'.2) (by simpa using hlt) hf'

theorem findMatch_none {ps : List Pat} {s : Str} : findMatch ps s = none ↔ ∀ before w after gs, s = before ++ w ++ after → ¬ Fits ps [] w gs := by
  constructor
  · intro h
    induction s with
    | nil =>
      simp only [findMatch, Option.map_eq_none_iff] at h
      intro b w a gs e hf
      cases b with
      | cons d b => cases e
      | nil => exact matchHere_none h w a gs (by simpa using e) hf
    | cons c s ih =>
      simp only [findMatch] at h
      split at h
      · cases h
      · rename_i hm
        rw [Option.map_eq_none_iff] at h
        intro b w a gs e hf
        cases b with
        | nil => exact matchHere_none hm w a gs (by simpa using e) hf
        | cons d b =>
          simp only [List.cons_append, List.cons.injEq] at e
          exact ih h b w a gs (by simpa using e.2) hf
  · intro h
    cases hm : findMatch ps s with
    | none => rfl
    | some m =>
      obtain ⟨b, gs, a⟩ := m
      obtain ⟨w, e, hf, -⟩ := findMatch_some hm
      exact absurd hf (h b w a gs e)

/-! ## Inversion -/

theorem fits_nil {gs gs' : List Str} {s : Str} : Fits [] gs s gs' ↔ s = [] ∧ gs' = gs :=
  ⟨fun h => by cases h; exact ⟨rfl, rfl⟩, fun ⟨a, b⟩ => by subst a b; exact .done _⟩

theorem fits_lit {l : Str} {ps : List Pat} {gs gs' : List Str} {s : Str} : Fits (.lit l :: ps) gs s gs' ↔ ∃ t, s = l ++ t ∧ Fits ps gs t gs' :=
  ⟨fun h => by cases h with | lit _ h => exact ⟨_, rfl, h⟩, fun ⟨_, e, h⟩ => e ▸ .lit _ h⟩

theorem fits_back {n : Nat} {ps : List Pat} {gs gs' : List Str} {s : Str} :
    Fits (.back n :: ps) gs s gs' ↔ ∃ t, s = gs.getD (n - 1) [] ++ t ∧ Fits ps gs t gs' :=
  ⟨fun h => by cases h with | back _ h => exact ⟨_, rfl, h⟩, fun ⟨_, e, h⟩ => e ▸ .back _ h⟩

theorem fits_spaces {ps : List Pat} {gs gs' : List Str} {s : Str} :
    Fits (.spaces :: ps) gs s gs' ↔ ∃ b, Spaces b ∧ ∃ t, s = b ++ t ∧ Fits ps gs t gs' :=
  ⟨fun h => by cases h with | spaces b hb h => exact ⟨b, hb, _, rfl, h⟩, fun ⟨_, hb, _, e, h⟩ => e ▸ .spaces _ hb h⟩

theorem fits_group {ps : List Pat} {gs gs' : List Str} {s : Str} :
    Fits (.group :: ps) gs s gs' ↔ ∃ g t, s = g ++ t ∧ Fits ps (gs ++ [g]) t gs' :=
  ⟨fun h => by cases h with | group g h => exact ⟨g, _, rfl, h⟩, fun ⟨_, _, e, h⟩ => e ▸ .group _ h⟩

/-! ## What the patterns of the program match -/

theorem spaces_nil : Spaces [] := fun _ h => by cases h

/-- A match of any pattern but that of `multiset` is a container with its default arguments; the replacement is the short name. -/
theorem regex_default {p : List Pat × List Sub} (hp : p ∈ regexMap) {w : Str} {gs : List Str} (h : Fits p.1 [] w gs) :
    DefaultArguments w (expand gs p.2) ∨
      ∃ T L A b1 b2, Spaces b1 ∧ Spaces b2 ∧ w = c!"multiset<" ++ T ++ c!"," ++ b1 ++ c!"std::less<" ++ L ++ c!">," ++ b2 ++ c!"std::allocator<" ++ A ++ c!">>" ∧
        expand gs p.2 = c!"multiset<" ++ T ++ c!" *>" := by
  unfold regexMap at hp
  rcases List.mem_cons.1 hp with rfl | hp
  · simp only [fits_lit, fits_group, fits_back, fits_spaces, fits_nil] at h
    obtain ⟨_, rfl, T, _, rfl, _, rfl, b1, h1, _, rfl, _, rfl, _, rfl, b2, h2, _, rfl, _, rfl, b3, h3, _, rfl, _, rfl, rfl, rfl⟩ := h
    have := DefaultArguments.sequence c!"list" T b1 b2 b3 (by simp) h1 h2 h3
    simp only [List.append_assoc] at this ⊢
    exact .inl this
  rcases List.mem_cons.1 hp with rfl | hp
  · simp only [fits_lit, fits_group, fits_back, fits_spaces, fits_nil] at h
    obtain ⟨_, rfl, T, _, rfl, _, rfl, b1, h1, _, rfl, _, rfl, _, rfl, b2, h2, _, rfl, _, rfl, b3, h3, _, rfl, _, rfl, rfl, rfl⟩ := h
    have := DefaultArguments.sequence c!"deque" T b1 b2 b3 (by simp) h1 h2 h3
    simp only [List.append_assoc] at this ⊢
    exact .inl this
  rcases List.mem_cons.1 hp with rfl | hp
  · simp only [fits_lit, fits_group, fits_back, fits_spaces, fits_nil] at h
    obtain ⟨_, rfl, T, _, rfl, _, rfl, b1, h1, _, rfl, _, rfl, _, rfl, b2, h2, _, rfl, _, rfl, b3, h3, _, rfl, _, rfl, rfl, rfl⟩ := h
    have := DefaultArguments.sequence c!"vector" T b1 b2 b3 (by simp) h1 h2 h3
    simp only [List.append_assoc] at this ⊢
    exact .inl this
  rcases List.mem_cons.1 hp with rfl | hp
  · simp only [fits_lit, fits_group, fits_back, fits_spaces, fits_nil] at h
    obtain ⟨_, rfl, T, _, rfl, _, rfl, b1, h1, _, rfl, _, rfl, _, rfl, b2, h2, _, rfl, _, rfl, b3, h3, _, rfl, _, rfl, _, rfl, b4, h4, _, rfl, _, rfl,
      b5, h5, _, rfl, _, rfl, rfl, rfl⟩ := h
    have := DefaultArguments.set T b1 b2 b3 b4 b5 h1 h2 h3 h4 h5
    simp only [List.append_assoc] at this ⊢
    exact .inl this
  rcases List.mem_cons.1 hp with rfl | hp
  · simp only [fits_lit, fits_group, fits_back, fits_spaces, fits_nil] at h
    obtain ⟨_, rfl, T, _, rfl, _, rfl, b1, h1, _, rfl, _, rfl, _, rfl, b2, h2, _, rfl, _, rfl, b3, h3, _, rfl, _, rfl, rfl, rfl⟩ := h
    have := DefaultArguments.sequence c!"forward_list" T b1 b2 b3 (by simp) h1 h2 h3
    simp only [List.append_assoc] at this ⊢
    exact .inl this
  rcases List.mem_cons.1 hp with rfl | hp
  · simp only [fits_lit, fits_group, fits_back, fits_spaces, fits_nil] at h
    obtain ⟨_, rfl, K, _, rfl, _, rfl, V, _, rfl, _, rfl, b1, h1, _, rfl, _, rfl, _, rfl, b2, h2, _, rfl, _, rfl, b3, h3, _, rfl, _, rfl, _, rfl, _, rfl,
      _, rfl, b4, h4, _, rfl, _, rfl, b5, h5, _, rfl, _, rfl, b6, h6, _, rfl, _, rfl, rfl, rfl⟩ := h
    have := DefaultArguments.map c!"map" K V b1 b2 b3 b4 b5 b6 (by simp) h1 h2 h3 h4 h5 h6
    simp only [List.append_assoc] at this ⊢
    exact .inl this
  rcases List.mem_cons.1 hp with rfl | hp
  · simp only [fits_lit, fits_group, fits_back, fits_spaces, fits_nil] at h
    obtain ⟨_, rfl, T, _, rfl, _, rfl, b1, h1, _, rfl, _, rfl, L, _, rfl, _, rfl, b2, h2, _, rfl, _, rfl, A, _, rfl, _, rfl, rfl, rfl⟩ := h
    refine .inr ⟨T, L, A, b1, b2, h1, h2, ?_, rfl⟩
    simp only [List.append_assoc]
    rfl
  rcases List.mem_cons.1 hp with rfl | hp
  · simp only [fits_lit, fits_group, fits_back, fits_spaces, fits_nil] at h
    obtain ⟨_, rfl, K, _, rfl, _, rfl, V, _, rfl, _, rfl, b1, h1, _, rfl, _, rfl, _, rfl, _, rfl, b3, h3, _, rfl, _, rfl, _, rfl, _, rfl,
      _, rfl, b4, h4, _, rfl, _, rfl, b5, h5, _, rfl, _, rfl, b6, h6, _, rfl, _, rfl, rfl, rfl⟩ := h
    have := DefaultArguments.map c!"multimap" K V b1 [] b3 b4 b5 b6 (by simp) h1 spaces_nil h3 h4 h5 h6
    simp only [List.append_assoc] at this ⊢
    exact .inl this
  rcases List.mem_cons.1 hp with rfl | hp
  · simp only [fits_lit, fits_group, fits_back, fits_spaces, fits_nil] at h
    obtain ⟨_, rfl, T, _, rfl, _, rfl, b1, h1, _, rfl, _, rfl, _, rfl, _, rfl, _, rfl, _, rfl, _, rfl, _, rfl, rfl, rfl⟩ := h
    have := DefaultArguments.unorderedSet c!"unordered_set" T b1 [] [] [] [] (by simp) h1 spaces_nil spaces_nil spaces_nil spaces_nil
    simp only [List.append_assoc] at this ⊢
    exact .inl this
  rcases List.mem_cons.1 hp with rfl | hp
  · simp only [fits_lit, fits_group, fits_back, fits_spaces, fits_nil] at h
    obtain ⟨_, rfl, K, _, rfl, _, rfl, b0, h0, _, rfl, V, _, rfl, _, rfl, _, rfl, _, rfl, _, rfl, _, rfl, _, rfl, _, rfl,
      _, rfl, b5, h5, _, rfl, _, rfl, b6, h6, _, rfl, _, rfl, b7, h7, _, rfl, _, rfl, rfl, rfl⟩ := h
    have := DefaultArguments.unorderedMap c!"unordered_map" K V b0 [] [] [] [] b5 b6 b7 (by simp) h0 spaces_nil spaces_nil spaces_nil spaces_nil h5 h6 h7
    simp only [List.append_assoc] at this ⊢
    exact .inl this
  rcases List.mem_cons.1 hp with rfl | hp
  · simp only [fits_lit, fits_group, fits_back, fits_spaces, fits_nil] at h
    obtain ⟨_, rfl, T, _, rfl, _, rfl, b1, h1, _, rfl, _, rfl, _, rfl, _, rfl, b2, h2, _, rfl, _, rfl, _, rfl, _, rfl, b3, h3, _, rfl, _, rfl, _, rfl,
      b4, h4, _, rfl, _, rfl, b5, h5, _, rfl, _, rfl, rfl, rfl⟩ := h
    have := DefaultArguments.unorderedSet c!"unordered_multiset" T b1 b2 b3 b4 b5 (by simp) h1 h2 h3 h4 h5
    simp only [List.append_assoc] at this ⊢
    exact .inl this
  rcases List.mem_cons.1 hp with rfl | hp
  · simp only [fits_lit, fits_group, fits_back, fits_spaces, fits_nil] at h
    obtain ⟨_, rfl, K, _, rfl, _, rfl, b0, h0, _, rfl, V, _, rfl, _, rfl, _, rfl, b1, h1, _, rfl, _, rfl, b2, h2, _, rfl, _, rfl, _, rfl, b3, h3, _, rfl,
      _, rfl, b4, h4, _, rfl, _, rfl, _, rfl, _, rfl, _, rfl, b5, h5, _, rfl, _, rfl, b6, h6, _, rfl, _, rfl, b7, h7, _, rfl, _, rfl, rfl, rfl⟩ := h
    have := DefaultArguments.unorderedMap c!"unordered_multimap" K V b0 b1 b2 b3 b4 b5 b6 b7 (by simp) h0 h1 h2 h3 h4 h5 h6 h7
    simp only [List.append_assoc] at this ⊢
    exact .inl this
  exact absurd hp List.not_mem_nil

/-! ## Lengths -/

theorem Spec.DefaultArguments.shorter {full short : Str} (h : DefaultArguments full short) : short.length < full.length := by
  cases h <;> simp only [List.length_append, List.length_cons, List.length_nil] <;> omega

/-- A replacement shortens the text or leaves it alone. -/
theorem subst_shorter {p : List Pat × List Sub} (hp : p ∈ regexMap) (s : Str) : subst p s = s ∨ (subst p s).length < s.length := by
  unfold subst
  split
  · exact .inl rfl
  · rename_i before gs after hm
    right
    obtain ⟨w, rfl, hf, -⟩ := findMatch_some hm
    have : (expand gs p.2).length < w.length := by
      rcases regex_default hp hf with h | ⟨T, L, A, b1, b2, -, -, rfl, e⟩
      · exact h.shorter
      · rw [e]; simp only [List.length_append, List.length_cons, List.length_nil]; omega
    simp only [List.length_append]
    omega

theorem subst_eq_iff {p : List Pat × List Sub} (hp : p ∈ regexMap) {s : Str} : subst p s = s ↔ findMatch p.1 s = none := by
  constructor
  · intro h
    cases hm : findMatch p.1 s with
    | none => rfl
    | some m =>
      obtain ⟨before, gs, after⟩ := m
      exfalso
      obtain ⟨w, e, hf, -⟩ := findMatch_some hm
      have hlt : (expand gs p.2).length < w.length := by
        rcases regex_default hp hf with h | ⟨T, L, A, b1, b2, -, -, rfl, e'⟩
        · exact h.shorter
        · rw [e']; simp only [List.length_append, List.length_cons, List.length_nil]; omega
      have : (subst p s).length = s.length := by rw [h]
      unfold subst at this
      rw [hm] at this
      rw [e] at this
      simp only [List.length_append] at this
      omega
  · intro h
    unfold subst
    rw [h]

theorem pass_aux (l : List (List Pat × List Sub)) (hl : ∀ p ∈ l, p ∈ regexMap) (s : Str) :
    (l.foldl (fun s p => subst p s) s = s ∧ ∀ p ∈ l, subst p s = s) ∨ (l.foldl (fun s p => subst p s) s).length < s.length := by
  induction l generalizing s with
  | nil => exact .inl ⟨rfl, fun _ h => by cases h⟩
  | cons p l ih =>
    simp only [List.foldl_cons]
    have hl' : ∀ q ∈ l, q ∈ regexMap := fun q hq => hl q (List.mem_cons_of_mem _ hq)
    rcases subst_shorter (hl p List.mem_cons_self) s with h | h
    · rw [h]
      rcases ih hl' s with ⟨h1, h2⟩ | h1
      · refine .inl ⟨h1, fun q hq => ?_⟩
        rcases List.mem_cons.1 hq with rfl | hq
        · exact h
        · exact h2 q hq
      · exact .inr h1
    · right
      rcases ih hl' (subst p s) with ⟨h1, -⟩ | h1
      · rw [h1]; exact h
      · omega

/-- A pass over the table shortens the text, or no expression matches. -/
theorem simplifyPass_shorter (s : Str) :
    (simplifyPass s = s ∧ ∀ p ∈ regexMap, subst p s = s) ∨ (simplifyPass s).length < s.length :=
  pass_aux regexMap (fun _ h => h) s

theorem simplifyLoopF_some (n : Nat) (s : Str) (previous : Nat) (hn : s.length + 2 ≤ n) : ∃ r, simplifyLoopF n s previous = some r := by
  induction n generalizing s previous with
  | zero => omega
  | succ n ih =>
    simp only [simplifyLoopF]
    split
    · exact ⟨s, rfl⟩
    · rcases simplifyPass_shorter s with ⟨h, -⟩ | h
      · rw [h]
        cases n with
        | zero => omega
        | succ n => exact ⟨s, by simp only [simplifyLoopF, if_true]⟩
      · exact ih _ _ (by omega)

theorem simplifyLoopF_mono {n m : Nat} {s r : Str} {previous : Nat} (h : simplifyLoopF n s previous = some r) (hm : n ≤ m) :
    simplifyLoopF m s previous = some r := by
  induction n generalizing m s previous with
  | zero => cases h
  | succ n ih =>
    cases m with
    | zero => omega
    | succ m =>
      simp only [simplifyLoopF] at h ⊢
      split
      · rename_i e; rw [if_pos e] at h; exact h
      · rename_i e; rw [if_neg e] at h; exact ih h (by omega)

/-- No expression of the table matches. -/
def NoMatch (s : Str) : Prop := ∀ p ∈ regexMap, findMatch p.1 s = none

theorem noMatch_iff {s : Str} : NoMatch s ↔ ∀ p ∈ regexMap, subst p s = s :=
  ⟨fun h p hp => (subst_eq_iff hp).2 (h p hp), fun h p hp => (subst_eq_iff hp).1 (h p hp)⟩

/-- Invariants of the loop: what holds of the text in the beginning and is kept by every replacement holds in the end, where no
expression matches. -/
theorem simplifyLoopF_end (P : Str → Prop) (hP : ∀ p ∈ regexMap, ∀ s, P s → P (subst p s)) {n : Nat} {s r : Str} {previous : Nat}
    (h : simplifyLoopF n s previous = some r) (hs : P s) (hq : s.length = previous → NoMatch s) : P r ∧ NoMatch r := by
  induction n generalizing s previous with
  | zero => cases h
  | succ n ih =>
    simp only [simplifyLoopF] at h
    split at h
    · rename_i e; cases h; exact ⟨hs, hq e⟩
    · refine ih h ?_ fun e => ?_
      · have : ∀ (l : List (List Pat × List Sub)) (hl : ∀ p ∈ l, p ∈ regexMap) (s : Str), P s → P (l.foldl (fun s p => subst p s) s) := by
          intro l
          induction l with
          | nil => intro _ s hs; exact hs
          | cons p l ih => intro hl s hs; exact ih (fun q hq => hl q (List.mem_cons_of_mem _ hq)) _ (hP p (hl p List.mem_cons_self) s hs)
        exact this regexMap (fun _ h => h) s hs
      · rcases simplifyPass_shorter s with ⟨h1, h2⟩ | h1
        · rw [h1]; exact noMatch_iff.2 h2
        · omega

/-! ## A quicker search, for examples -/

/-- `findMatch` that looks for the first literal before anything else. -/
def findMatchQuick (l : Str) (ps : List Pat) : Str → Option (Str × List Str × Str)
  | [] => if l.isPrefixOf [] then (matchHere (.lit l :: ps) []).map fun m => ([], m) else none
  | c :: s => match (if l.isPrefixOf (c :: s) then matchHere (.lit l :: ps) (c :: s) else none) with
    | some m => some ([], m)
    | none => (findMatchQuick l ps s).map fun m => (c :: m.1, m.2)

theorem matchHere_quick (l : Str) (ps : List Pat) (s : Str) : matchHere (.lit l :: ps) s = if l.isPrefixOf s then matchHere (.lit l :: ps) s else none := by
  split
  · rfl
  · rename_i h
    cases hm : matchHere (.lit l :: ps) s with
    | none => rfl
    | some m =>
      obtain ⟨gs, a⟩ := m
      obtain ⟨w, rfl, hf, -⟩ := matchHere_some hm
      obtain ⟨t, rfl, -⟩ := fits_lit.1 hf
      exact absurd (List.isPrefixOf_iff_prefix.2 ⟨t ++ a, by simp⟩) h

theorem findMatch_quick (l : Str) (ps : List Pat) (s : Str) : findMatch (.lit l :: ps) s = findMatchQuick l ps s := by
  induction s with
  | nil =>
    simp only [findMatch, findMatchQuick]
    rw [matchHere_quick]
    split <;> rfl
  | cons c s ih =>
    simp only [findMatch, findMatchQuick, ih]
    rw [← matchHere_quick]
    cases matchHere (.lit l :: ps) (c :: s) <;> rfl

/-- `findMatch`, quicker if the expression begins with a literal. -/
def findQuick (ps : List Pat) (s : Str) : Option (Str × List Str × Str) :=
  match ps with
  | .lit l :: ps => findMatchQuick l ps s
  | ps => findMatch ps s

theorem find_quick (ps : List Pat) (s : Str) : findMatch ps s = findQuick ps s := by
  unfold findQuick
  split
  · exact findMatch_quick _ _ _
  · rfl

/-- `subst` with the quicker search. -/
def substQuick (p : List Pat × List Sub) (s : Str) : Str :=
  match findQuick p.1 s with
  | none => s
  | some (before, gs, after) => before ++ expand gs p.2 ++ after

theorem subst_quick (p : List Pat × List Sub) (s : Str) : subst p s = substQuick p s := by
  unfold subst substQuick
  rw [find_quick]
  cases findQuick p.1 s <;> rfl

/-- `simplifyLoopF` with the quicker search. -/
def loopQuick : Nat → Str → Nat → Option Str
  | 0, _, _ => none
  | n + 1, res, previous => if res.length = previous then some res else loopQuick n (regexMap.foldl (fun s p => substQuick p s) res) res.length

theorem loop_quick (n : Nat) (s : Str) (m : Nat) : simplifyLoopF n s m = loopQuick n s m := by
  induction n generalizing s m with
  | zero => rfl
  | succ n ih => simp only [simplifyLoopF, loopQuick, simplifyPass, ih, subst_quick]

/-- `simplifyStd` with the quicker search. -/
def simplifyQuick (s : Str) : Str :=
  match stdTypedefMap.lookup s with
  | some r => r
  | none => (loopQuick (s.length + 2) s 0).getD s

theorem simplify_quick (s : Str) : simplifyStd s = simplifyQuick s := by
  unfold simplifyStd simplifyStdF simplifyQuick
  cases stdTypedefMap.lookup s with
  | some r => rfl
  | none => simp only [loop_quick]

end Binder
