import Verif.Lemmas.Config

/-! # Lemmas about the loop of the configuration reader -/

namespace Binder

open Spec (stripCR Ignored directive noSpaces twoWords stripBlanks WellFormed given givenEither lastFor allFor)

/-- The effect of a well-formed line. -/
def lineEffect (c : Config) (l : Str) : Config :=
  if Ignored l then c else
    match directive l with
    | some (s, k, a) => fieldEffect c (s == '+') k a
    | none => c

theorem directive_sign {l : Str} {s : Char} {k a : Str} (h : directive l = some (s, k, a)) : s = '+' ∨ s = '-' := by
  unfold directive at h
  split at h
  · simp at h
  · split at h
    · rename_i hs
      split at h
      · simp at h
      · simp at h; rw [← h.1]; exact hs
    · simp at h

theorem applyLine_ok (c : Config) (l : Str) (h : WellFormed l) : applyLine c l = .ok (lineEffect c l) := by
  rw [applyLine_eq, lineEffect]
  by_cases hi : Ignored l
  · simp [hi]
  · rcases h with h | ⟨s, k, a, hd, hk, hp, ht⟩
    · exact absurd h hi
    · simp only [hi, if_false, hd]
      rw [applyToken_known c _ _ _ _ hk]
      have hs := directive_sign hd
      have c1 : ¬ (k ∈ Spec.plusOnlyKeywords ∧ (s == '+') = false) := by
        rintro ⟨h1, h2⟩; rw [hp h1] at h2; simp at h2
      have c2 : ¬ (k ∈ Spec.pairKeywords ∧ (s == '+') = true ∧ splitInTwo a = none) := by
        rintro ⟨h1, h2, h3⟩
        rw [splitInTwo_eq] at h3
        exact ht h1 (by simpa using h2) h3
      rw [if_neg c1, if_neg c2]

/-- The error reported for a malformed line: its kind follows the first rule the line breaks. -/
def lineError (l : Str) : ReadError :=
  match directive l with
  | none => if (stripCR l).head? = some '+' ∨ (stripCR l).head? = some '-' then .noSpace (stripCR l) else .firstCharacter (stripCR l)
  | some (s, k, _) =>
    if k ∉ Spec.keywords then .unknownToken k (stripCR l)
    else if k ∈ Spec.plusOnlyKeywords ∧ s = '-' then .mustBePlus k
    else .noSecondWord (stripCR l)

theorem applyLine_error (c : Config) (l : Str) (h : ¬ WellFormed l) : applyLine c l = .error (lineError l) := by
  have hi : ¬ Ignored l := fun hi => h (Or.inl hi)
  rw [applyLine_eq, lineError]
  simp only [hi, if_false]
  cases hd : directive l with
  | none =>
    simp only
    split <;> simp_all
  | some p =>
    obtain ⟨s, k, a⟩ := p
    have hs := directive_sign hd
    simp only
    by_cases hk : k ∈ Spec.keywords
    · rw [applyToken_known c _ _ _ _ hk]
      simp only [hk, not_true, if_false]
      by_cases h1 : k ∈ Spec.plusOnlyKeywords ∧ s = '-'
      · have : k ∈ Spec.plusOnlyKeywords ∧ (s == '+') = false := ⟨h1.1, by rw [h1.2]; rfl⟩
        rw [if_pos this, if_pos h1]
      · have : ¬ (k ∈ Spec.plusOnlyKeywords ∧ (s == '+') = false) := by
          rintro ⟨h2, h3⟩
          rcases hs with hs | hs
          · subst hs; simp at h3
          · exact h1 ⟨h2, hs⟩
        rw [if_neg this, if_neg h1]
        have h2 : k ∈ Spec.pairKeywords ∧ (s == '+') = true ∧ splitInTwo a = none := by
          apply Classical.byContradiction
          intro hn
          apply h
          refine Or.inr ⟨s, k, a, hd, hk, ?_, ?_⟩
          · intro hp
            rcases hs with hs | hs
            · exact hs
            · exact absurd ⟨hp, hs⟩ h1
          · intro hp hs' ht
            apply hn
            refine ⟨hp, by rw [hs']; rfl, ?_⟩
            rw [splitInTwo_eq]; exact ht
        rw [if_pos h2]
    · rw [applyToken_unknown hk, if_pos hk]

theorem readLines_ok (c : Config) (ls : List Str) (h : ∀ l ∈ ls, WellFormed l) : readLines c ls = .ok (ls.foldl lineEffect c) := by
  induction ls generalizing c with
  | nil => rfl
  | cons l ls ih =>
    simp only [readLines, applyLine_ok c l (h l (by simp)), List.foldl_cons]
    exact ih _ (fun x hx => h x (by simp [hx]))

theorem readLines_error (c : Config) (pre post : List Str) (l : Str) (h : ∀ x ∈ pre, WellFormed x) (hl : ¬ WellFormed l) :
    readLines c (pre ++ l :: post) = .error (lineError l) := by
  induction pre generalizing c with
  | nil => simp only [List.nil_append, readLines, applyLine_error c l hl]
  | cons x xs ih =>
    simp only [List.cons_append, readLines, applyLine_ok c x (h x (by simp))]
    exact ih _ (fun y hy => h y (by simp [hy]))

theorem first_bad {ls : List Str} (h : ¬ ∀ l ∈ ls, WellFormed l) :
    ∃ pre l post, ls = pre ++ l :: post ∧ (∀ x ∈ pre, WellFormed x) ∧ ¬ WellFormed l := by
  induction ls with
  | nil => simp at h
  | cons l ls ih =>
    by_cases hl : WellFormed l
    · have : ¬ ∀ x ∈ ls, WellFormed x := by
        intro h'; apply h; intro x hx; rcases List.mem_cons.1 hx with rfl | hx
        · exact hl
        · exact h' x hx
      obtain ⟨pre, b, post, rfl, h1, h2⟩ := ih this
      refine ⟨l :: pre, b, post, rfl, ?_, h2⟩
      intro x hx; rcases List.mem_cons.1 hx with rfl | hx
      · exact hl
      · exact h1 x hx
    · exact ⟨[], l, ls, rfl, by simp, hl⟩

theorem readLines_ok_iff {c c' : Config} {ls : List Str} :
    readLines c ls = .ok c' ↔ (∀ l ∈ ls, WellFormed l) ∧ c' = ls.foldl lineEffect c := by
  constructor
  · intro h
    by_cases hw : ∀ l ∈ ls, WellFormed l
    · rw [readLines_ok c ls hw] at h
      injection h with h
      exact ⟨hw, h.symm⟩
    · obtain ⟨pre, l, post, rfl, h1, h2⟩ := first_bad hw
      rw [readLines_error c pre post l h1 h2] at h
      cases h
  · rintro ⟨h1, rfl⟩; exact readLines_ok c ls h1

/-! ## Fields -/

theorem given_append (s : Char) (k : Str) (a b : List Str) : given s k (a ++ b) = given s k a ++ given s k b := by
  simp [given]

theorem givenEither_append (k : Str) (a b : List Str) : givenEither k (a ++ b) = givenEither k a ++ givenEither k b := by
  simp [givenEither]

theorem lastFor_append (k key : Str) (a b : List Str) : lastFor k key (a ++ b) = (lastFor k key b).or (lastFor k key a) := by
  simp only [lastFor, given_append, List.filterMap_append, List.filter_append, List.getLast?_append]
  cases (List.filter (fun p => decide (p.fst = key)) (List.filterMap twoWords (given '+' k b))).getLast? <;> simp

theorem allFor_append (k key : Str) (a b : List Str) : allFor k key (a ++ b) = allFor k key a ++ allFor k key b := by
  simp [allFor, given_append]

theorem foldl_list {f : Config → List Str} {s : Char} {k : Str}
    (h : ∀ c l, f (lineEffect c l) = f c ++ (given s k [l]).map noSpaces) (c : Config) (ls : List Str) :
    f (ls.foldl lineEffect c) = f c ++ (given s k ls).map noSpaces := by
  induction ls generalizing c with
  | nil => simp [given]
  | cons l ls ih =>
    rw [List.foldl_cons, ih, h, show l :: ls = [l] ++ ls from rfl, given_append]
    simp

theorem foldl_scalar {f : Config → Str} {k : Str}
    (h : ∀ c l, f (lineEffect c l) = ((givenEither k [l]).getLast?.map noSpaces).getD (f c)) (c : Config) (ls : List Str) :
    f (ls.foldl lineEffect c) = ((givenEither k ls).getLast?.map noSpaces).getD (f c) := by
  induction ls generalizing c with
  | nil => simp [givenEither]
  | cons l ls ih =>
    rw [List.foldl_cons, ih, h, show l :: ls = [l] ++ ls from rfl, givenEither_append, List.getLast?_append]
    cases (givenEither k ls).getLast? <;> simp

theorem foldl_map {f : Config → Str → Option Str} {k : Str} {g : Str → Str}
    (h : ∀ c l key, f (lineEffect c l) key = ((lastFor k key [l]).map g).or (f c key)) (c : Config) (ls : List Str) (key : Str) :
    f (ls.foldl lineEffect c) key = ((lastFor k key ls).map g).or (f c key) := by
  induction ls generalizing c with
  | nil => simp [lastFor, given]
  | cons l ls ih =>
    rw [List.foldl_cons, ih, h, show l :: ls = [l] ++ ls from rfl, lastFor_append]
    cases lastFor k key ls <;> simp

theorem foldl_incs {f : Config → Str → List Str} {k : Str}
    (h : ∀ c l key, f (lineEffect c l) key = f c key ++ allFor k key [l]) (c : Config) (ls : List Str) (key : Str) :
    f (ls.foldl lineEffect c) key = f c key ++ allFor k key ls := by
  induction ls generalizing c with
  | nil => simp [allFor, given]
  | cons l ls ih =>
    rw [List.foldl_cons, ih, h, show l :: ls = [l] ++ ls from rfl, allFor_append]
    simp

theorem list_step {f : Config → List Str} {b : Bool} {k : Str} {s : Char} (hs : s = if b then '+' else '-')
    (hf : ∀ c b' tok name, f (fieldEffect c b' tok name) = addList (f c) b' b tok k name) (c : Config) (l : Str) :
    f (lineEffect c l) = f c ++ (given s k [l]).map noSpaces := by
  unfold lineEffect given
  by_cases hi : Ignored l
  · simp [hi]
  · simp only [hi, if_false]
    cases hd : directive l with
    | none => simp [hi, hd]
    | some p =>
      obtain ⟨s', k', a⟩ := p
      have := directive_sign hd
      simp only [hf, addList, despace_eq]
      rcases this with rfl | rfl <;> cases b <;> subst hs <;> by_cases hk : k' = k <;> simp [hk, hi, hd]

theorem scalar_step {f : Config → Str} {k : Str}
    (hf : ∀ c b' tok name, f (fieldEffect c b' tok name) = setScalar (f c) tok k name) (c : Config) (l : Str) :
    f (lineEffect c l) = ((givenEither k [l]).getLast?.map noSpaces).getD (f c) := by
  unfold lineEffect givenEither
  by_cases hi : Ignored l
  · simp [hi]
  · simp only [hi, if_false]
    cases hd : directive l with
    | none => simp [hi, hd]
    | some p =>
      obtain ⟨s', k', a⟩ := p
      simp only [hf, setScalar, despace_eq]
      by_cases hk : k' = k <;> simp [hk, hi, hd]

theorem map_step {f : Config → Str → Option Str} {k : Str} {g : Str → Str}
    (hf : ∀ c b' tok name, f (fieldEffect c b' tok name) = setMap (f c) g b' tok k name) (c : Config) (l key : Str) :
    f (lineEffect c l) key = ((lastFor k key [l]).map g).or (f c key) := by
  unfold lineEffect lastFor given
  by_cases hi : Ignored l
  · simp [hi]
  · simp only [hi, if_false]
    cases hd : directive l with
    | none => simp [hi, hd]
    | some p =>
      obtain ⟨s', k', a⟩ := p
      have := directive_sign hd
      simp only [hf, setMap, splitInTwo_eq]
      rcases this with rfl | rfl
      · by_cases hk : k' = k
        · simp only [hk, hi, hd, if_false, List.filterMap_cons, List.filterMap_nil]
          cases ht : twoWords a with
          | none => simp [ht]
          | some q =>
            obtain ⟨x, v⟩ := q
            by_cases hx : x = key
            · simp [ht, hx, mapSet]
            · simp [ht, hx, mapSet, Ne.symm hx]
        · simp [hk, hi, hd]
      · simp [hi, hd]

theorem incs_step {f : Config → Str → List Str} {k : Str}
    (hf : ∀ c b' tok name, f (fieldEffect c b' tok name) = pushMap (f c) b' tok k name) (c : Config) (l key : Str) :
    f (lineEffect c l) key = f c key ++ allFor k key [l] := by
  unfold lineEffect allFor given
  by_cases hi : Ignored l
  · simp [hi]
  · simp only [hi, if_false]
    cases hd : directive l with
    | none => simp [hi, hd]
    | some p =>
      obtain ⟨s', k', a⟩ := p
      have := directive_sign hd
      simp only [hf, pushMap, splitInTwo_eq]
      rcases this with rfl | rfl
      · by_cases hk : k' = k
        · simp only [hk, hi, hd, if_false, List.filterMap_cons, List.filterMap_nil]
          cases ht : twoWords a with
          | none => simp [ht]
          | some q =>
            obtain ⟨x, v⟩ := q
            by_cases hx : x = key
            · simp [ht, hx, mapPush]
            · simp [ht, hx, mapPush, Ne.symm hx]
        · simp [hk, hi, hd]
      · simp [hi, hd]

end Binder
