import Verif.Lemmas.Strings

/-! Lemmas about `mangle_type_name` and the documentation string. -/

namespace Binder

open Spec

/-- One step of the mangling loop on the accumulated string. -/
def mangleStep (r : Str) (c : Char) : Str :=
  if isMangleSep c then (if r.isEmpty || r.getLast? != some '_' then r ++ ['_'] else r) else r ++ [c]

theorem mangleLoop_eq_foldl (r s : Str) : mangleLoop r s = s.foldl mangleStep r := by
  induction s generalizing r with
  | nil => rfl
  | cons c cs ih => simp only [mangleLoop, List.foldl_cons, ih, mangleStep]

theorem mem_mangleLoop {s r : Str} {c : Char} (h : c ∈ mangleLoop r s) : c ∈ r ∨ c = '_' ∨ (c ∈ s ∧ isMangleSep c = false) := by
  induction s generalizing r with
  | nil => simp [mangleLoop] at h; exact .inl h
  | cons d ds ih =>
    rw [mangleLoop] at h
    rcases ih h with h | h | h
    · split at h
      · split at h
        · simp only [List.mem_append, List.mem_singleton] at h
          rcases h with h | h
          · exact .inl h
          · exact .inr (.inl h)
        · exact .inl h
      · rename_i hs
        simp only [List.mem_append, List.mem_singleton] at h
        rcases h with h | h
        · exact .inl h
        · exact .inr (.inr ⟨by simp [h], by rw [h]; simpa using hs⟩)
    · exact .inr (.inl h)
    · exact .inr (.inr ⟨by simp [h.1], h.2⟩)

theorem mangleLoop_filter (s r : Str) :
    (mangleLoop r s).filter (· ≠ '_') = r.filter (· ≠ '_') ++ s.filter (fun c => !isMangleSep c && c ≠ '_') := by
  induction s generalizing r with
  | nil => simp [mangleLoop]
  | cons d ds ih =>
    rw [mangleLoop, ih]
    by_cases hs : isMangleSep d = true
    · simp only [hs, if_true]
      split <;> simp [hs]
    · have hs' : isMangleSep d = false := by simpa using hs
      rw [if_neg hs]
      by_cases hu : d = '_'
      · subst hu; simp
      · simp [hs', hu]

theorem mangleLoop_plain (s r : Str) (h : ∀ c ∈ s, isMangleSep c = false) : mangleLoop r s = r ++ s := by
  induction s generalizing r with
  | nil => simp [mangleLoop]
  | cons d ds ih =>
    rw [mangleLoop, ih]
    · simp [h d (by simp)]
    · intro c hc; exact h c (by simp [hc])

theorem mangleLoop_noDouble (s r : Str) (hr : ¬ c!"__" <:+: r) (hs : '_' ∉ s) : ¬ c!"__" <:+: mangleLoop r s := by
  induction s generalizing r with
  | nil => simpa [mangleLoop] using hr
  | cons d ds ih =>
    simp only [List.mem_cons, not_or] at hs
    rw [mangleLoop]
    apply ih _ _ hs.2
    have app : ∀ e : Char, (e = '_' → r.getLast? ≠ some '_') → ¬ c!"__" <:+: r ++ [e] := by
      intro e he hi
      obtain ⟨a, b, hab⟩ := hi
      rcases List.eq_nil_or_concat b with rfl | ⟨b', x, rfl⟩
      · have h1 : (a ++ ['_']) ++ ['_'] = r ++ [e] := by simpa using hab
        obtain ⟨h2, h3⟩ := List.append_inj' h1 rfl
        simp at h3
        exact he h3.symm (by rw [← h2]; simp)
      · have h1 : (a ++ c!"__" ++ b') ++ [x] = r ++ [e] := by rw [← hab]; simp
        obtain ⟨h2, _⟩ := List.append_inj' h1 rfl
        exact hr ⟨a, b', h2⟩
    split
    · split
      · rename_i hc
        apply app
        intro _
        simp only [Bool.or_eq_true, List.isEmpty_iff, bne_iff_ne, ne_eq] at hc
        rcases hc with rfl | hc
        · simp
        · exact hc
      · exact hr
    · apply app
      intro e; exact absurd e.symm hs.1

theorem mangleLoop_head {s r : Str} (hr : r ≠ []) : (mangleLoop r s).head? = r.head? := by
  induction s generalizing r with
  | nil => rfl
  | cons d ds ih =>
    rw [mangleLoop, ih]
    · split
      · split
        · cases r with
          | nil => exact absurd rfl hr
          | cons _ _ => rfl
        · rfl
      · cases r with
        | nil => exact absurd rfl hr
        | cons _ _ => rfl
    · split
      · split <;> simp [hr]
      · simp

theorem mangleLoop_head_cons (c : Char) (cs : Str) :
    (mangleLoop [] (c :: cs)).head? = some (if isMangleSep c then '_' else c) := by
  rw [mangleLoop, mangleLoop_head]
  · split <;> simp
  · split <;> simp

/-! ## Documentation strings -/

/-- The composition of the three replacements, character by character. -/
def docEscape (c : Char) : Str :=
  if c = '\\' then c!"\\\\" else if c = '"' then c!"\\\"" else if c = '\n' then c!"\\n" else [c]

theorem docString_eq (t : Str) :
    docString t = (t.dropWhile fun c => c == ' ' || c == '\n').flatMap docEscape := by
  unfold docString
  simp only [replaceAll_single, List.flatMap_assoc]
  congr 1
  funext c
  unfold docEscape
  by_cases h1 : c = '\\'
  · subst h1; decide
  · by_cases h2 : c = '"'
    · subst h2; decide
    · by_cases h3 : c = '\n'
      · subst h3; decide
      · simp [h1, h2, h3]

theorem readLiteral_escape (c : Char) (rest : Str) :
    readLiteral (docEscape c ++ rest) = (readLiteral rest).map (c :: ·) := by
  unfold docEscape
  split
  · rename_i h; subst h; simp [readLiteral]
  · rename_i h1
    split
    · rename_i h; subst h; simp [readLiteral]
    · rename_i h2
      split
      · rename_i h; subst h; simp [readLiteral]
      · rename_i h3
        simp only [List.cons_append, List.nil_append]
        rw [readLiteral] <;> (intros; simp_all)

theorem readLiteral_flatMap (t : Str) : readLiteral (t.flatMap docEscape) = some t := by
  induction t with
  | nil => simp [readLiteral]
  | cons c cs ih => rw [List.flatMap_cons, readLiteral_escape, ih]; rfl

end Binder
