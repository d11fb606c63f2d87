import Verif.Lemmas.ConfigRead

/-! # Lemmas about the configuration queries -/

namespace Binder

open Spec (Longest Matched Beats Conflict)

/-- What the two locals of the namespace loops hold after the entries `pre`. -/
def ScanInv (ns : Str) (pre : List Str) (best : Str) : Prop :=
  (best = [] ∧ ¬ Matched pre ns) ∨ (best ≠ [] ∧ Longest pre ns best)

theorem matched_snoc {pre : List Str} {n ns : Str} : Matched (pre ++ [n]) ns ↔ Matched pre ns ∨ (n ≠ [] ∧ n <+: ns) := by
  unfold Matched
  constructor
  · rintro ⟨e, he, h1, h2⟩
    rcases List.mem_append.1 he with h | h
    · exact Or.inl ⟨e, h, h1, h2⟩
    · simp at h; subst h; exact Or.inr ⟨h1, h2⟩
  · rintro (⟨e, he, h1, h2⟩ | ⟨h1, h2⟩)
    · exact ⟨e, by simp [he], h1, h2⟩
    · exact ⟨n, by simp, h1, h2⟩

theorem scanInv_snoc {ns best : Str} {pre : List Str} {n : Str} (h : ScanInv ns pre best) :
    ScanInv ns (pre ++ [n]) (if beginsWith ns n then (if n.length > best.length then n else best) else best) := by
  by_cases hp : n <+: ns
  · have hb : beginsWith ns n = true := (beginsWith_iff ns n).2 hp
    simp only [hb, if_true]
    by_cases hl : n.length > best.length
    · simp only [hl, if_true]
      refine Or.inr ⟨?_, by simp, hp, ?_⟩
      · intro hn; subst hn; simp at hl
      · intro x hx hxp
        rcases List.mem_append.1 hx with hx | hx
        · rcases h with ⟨hb, hm⟩ | ⟨_, _, _, hmax⟩
          · by_cases hx0 : x = []
            · subst hx0; simp
            · exact absurd ⟨x, hx, hx0, hxp⟩ hm
          · have := hmax x hx hxp; omega
        · simp at hx; subst hx; exact Nat.le_refl _
    · simp only [hl, if_false]
      rcases h with ⟨hb, hm⟩ | ⟨hb, h1, h2, hmax⟩
      · refine Or.inl ⟨hb, ?_⟩
        rw [matched_snoc]
        rintro (h | ⟨h, _⟩)
        · exact hm h
        · subst hb
          have : 0 < n.length := List.length_pos_iff.2 h
          simp at hl; exact h hl
      · refine Or.inr ⟨hb, by simp [h1], h2, ?_⟩
        intro x hx hxp
        rcases List.mem_append.1 hx with hx | hx
        · exact hmax x hx hxp
        · simp at hx; subst hx; omega
  · have hb : beginsWith ns n = false := by
      cases h' : beginsWith ns n
      · rfl
      · exact absurd ((beginsWith_iff ns n).1 h') hp
    simp only [hb]
    simp only [Bool.false_eq_true, if_false]
    rcases h with ⟨hb, hm⟩ | ⟨hb, h1, h2, hmax⟩
    · refine Or.inl ⟨hb, ?_⟩
      rw [matched_snoc]
      rintro (h | ⟨_, h⟩)
      · exact hm h
      · exact hp h
    · refine Or.inr ⟨hb, by simp [h1], h2, ?_⟩
      intro x hx hxp
      rcases List.mem_append.1 hx with hx | hx
      · exact hmax x hx hxp
      · simp at hx; subst hx; exact absurd hxp hp

theorem scanInv_nil (ns : Str) : ScanInv ns [] [] := Or.inl ⟨rfl, by rintro ⟨e, he, _⟩; simp at he⟩

theorem scanInv_matched {ns best : Str} {pre : List Str} (h : ScanInv ns pre best) : Matched pre ns ↔ best ≠ [] := by
  rcases h with ⟨h1, h2⟩ | ⟨h1, h2, h3, _⟩
  · simp [h1, h2]
  · exact ⟨fun _ => h1, fun _ => ⟨best, h2, h1, h3⟩⟩

theorem scanPlain_spec (ns : Str) (es : List Str) :
    ScanInv ns es (scanPlain ns es).1 ∧ ((scanPlain ns es).2 = true ↔ Matched es ns) := by
  unfold scanPlain
  suffices h : ∀ (pre : List Str) (st : Str × Bool), ScanInv ns pre st.1 → (st.2 = true ↔ Matched pre ns) →
      let r := es.foldl (fun (st : Str × Bool) n =>
        if beginsWith ns n then (if n.length > st.1.length then (n, true) else st) else st) st
      ScanInv ns (pre ++ es) r.1 ∧ (r.2 = true ↔ Matched (pre ++ es) ns) by
    have := h [] ([], false) (scanInv_nil ns) (by simp [Matched])
    simpa using this
  induction es with
  | nil => intro pre st h1 h2; simp [h1, h2]
  | cons n es ih =>
    intro pre st h1 h2
    rw [List.foldl_cons]
    have := ih (pre ++ [n]) (if beginsWith ns n then (if n.length > st.1.length then (n, true) else st) else st) ?_ ?_
    · simpa using this
    · have := scanInv_snoc (n := n) h1
      split
      · rename_i hb; simp only [hb, if_true] at this
        split
        · rename_i hl; simpa [hl] using this
        · rename_i hl; simpa [hl] using this
      · rename_i hb; simpa [hb] using this
    · rw [matched_snoc, ← h2]
      split
      · rename_i hb
        have hp := (beginsWith_iff ns n).1 hb
        split
        · rename_i hl
          have : n ≠ [] := by intro h; subst h; simp at hl
          simp [this, hp]
        · rename_i hl
          constructor
          · exact Or.inl
          · rintro (h | ⟨h, _⟩)
            · exact h
            · rw [h2, scanInv_matched h1]
              intro h0; rw [h0] at hl
              have : 0 < n.length := List.length_pos_iff.2 h
              simp at hl; exact h hl
      · rename_i hb
        have hp : ¬ n <+: ns := fun h => hb ((beginsWith_iff ns n).2 h)
        simp [hp]

theorem scanBind_spec (ns : Str) (es : List Str) :
    ScanInv ns es (scanBind ns es).1 ∧ ((scanBind ns es).2 = true ↔ Matched es ns ∨ [] ∈ es) := by
  unfold scanBind
  suffices h : ∀ (pre : List Str) (st : Str × Bool), ScanInv ns pre st.1 → (st.2 = true ↔ Matched pre ns ∨ [] ∈ pre) →
      let r := es.foldl (fun (st : Str × Bool) n =>
        let st := if n.length == 0 then (st.1, true) else st
        if beginsWith ns n then (if n.length > st.1.length then (n, true) else st) else st) st
      ScanInv ns (pre ++ es) r.1 ∧ (r.2 = true ↔ Matched (pre ++ es) ns ∨ [] ∈ pre ++ es) by
    have := h [] ([], false) (scanInv_nil ns) (by simp [Matched])
    simpa using this
  induction es with
  | nil => intro pre st h1 h2; simp [h1, h2]
  | cons n es ih =>
    intro pre st h1 h2
    rw [List.foldl_cons]
    have := ih (pre ++ [n]) (let st' := if n.length == 0 then (st.1, true) else st
        if beginsWith ns n then (if n.length > st'.1.length then (n, true) else st') else st') ?_ ?_
    · simpa using this
    · have := scanInv_snoc (n := n) h1
      by_cases hn : n = []
      · subst hn
        simp [beginsWith, Str.compareAt] at this ⊢
        exact this
      · have : (n.length == 0) = false := by simpa using hn
        simp only [this]
        have := scanInv_snoc (n := n) h1
        simp only [Bool.false_eq_true, if_false]
        split
        · rename_i hb; simp only [hb, if_true] at this
          split
          · rename_i hl; simpa [hl] using this
          · rename_i hl; simpa [hl] using this
        · rename_i hb; simpa [hb] using this
    · rw [matched_snoc]
      by_cases hn : n = []
      · subst hn
        simp [beginsWith, Str.compareAt]
      · have hn0 : (n.length == 0) = false := by simpa using hn
        have : ([] : Str) ∈ pre ++ [n] ↔ [] ∈ pre := by simp [Ne.symm hn]
        rw [this]
        simp only [hn0, Bool.false_eq_true, if_false]
        split
        · rename_i hb
          have hp := (beginsWith_iff ns n).1 hb
          split
          · rename_i hl
            simp [hn, hp]
          · rename_i hl
            have hm : Matched pre ns := by
              rw [scanInv_matched h1]
              intro h0; rw [h0] at hl
              have : 0 < n.length := List.length_pos_iff.2 hn
              simp at hl; exact hn hl
            rw [h2]; simp [hm]
        · rename_i hb
          have hp : ¬ n <+: ns := fun h => hb ((beginsWith_iff ns n).2 h)
          rw [h2]; simp [hp]

theorem prefix_eq_of_length {a b s : Str} (ha : a <+: s) (hb : b <+: s) (h : a.length = b.length) : a = b :=
  List.IsPrefix.eq_of_length (List.prefix_of_prefix_length_le ha hb (Nat.le_of_eq h)) h

/-- Comparing the longest matches of two lists. -/
theorem beats_iff {ns b s : Str} {es others : List Str} (hb : ScanInv ns es b) (hs : ScanInv ns others s) :
    Beats es others ns ↔ b.length > s.length := by
  constructor
  · rintro ⟨e, ⟨h1, h2, h3⟩, h4, h5⟩
    have hbl : e.length = b.length := by
      rcases hb with ⟨h6, h7⟩ | ⟨h6, h7, h8, h9⟩
      · exact absurd ⟨e, h1, h4, h2⟩ h7
      · have := h9 e h1 h2; have := h3 b h7 h8; omega
    rcases hs with ⟨h6, _⟩ | ⟨h6, h7, h8, _⟩
    · rw [h6, ← hbl]; exact List.length_pos_iff.2 h4
    · have := h5 s h7 h8; omega
  · intro h
    rcases hb with ⟨h6, h7⟩ | ⟨h6, h7⟩
    · rw [h6] at h; simp at h
    · refine ⟨b, h7, h6, ?_⟩
      intro x hx hxp
      rcases hs with ⟨h8, h9⟩ | ⟨h8, h9, h10, h11⟩
      · by_cases hx0 : x = []
        · subst hx0; exact List.length_pos_iff.2 h6
        · exact absurd ⟨x, hx, hx0, hxp⟩ h9
      · have := h11 x hx hxp; omega

theorem conflict_iff {ns b s : Str} {es others : List Str} (hb : ScanInv ns es b) (hs : ScanInv ns others s) :
    Conflict es others ns ↔ b.length = s.length ∧ b ≠ [] := by
  constructor
  · rintro ⟨e, h0, ⟨h1, h2, h3⟩, ⟨h1', _, h3'⟩⟩
    rcases hb with ⟨_, h7⟩ | ⟨h6, h7, h8, h9⟩
    · exact absurd ⟨e, h1, h0, h2⟩ h7
    · rcases hs with ⟨_, h7'⟩ | ⟨_, h7', h8', h9'⟩
      · exact absurd ⟨e, h1', h0, h2⟩ h7'
      · have := h9 e h1 h2; have := h3 b h7 h8; have := h9' e h1' h2; have := h3' s h7' h8'
        exact ⟨by omega, h6⟩
  · rintro ⟨hl, hne⟩
    rcases hb with ⟨h6, _⟩ | ⟨_, h7⟩
    · exact absurd h6 hne
    · rcases hs with ⟨h8, _⟩ | ⟨_, h9⟩
      · rw [h8] at hl; simp at hl; exact absurd hl hne
      · have : b = s := prefix_eq_of_length h7.2.1 h9.2.1 hl
        exact ⟨b, hne, h7, this ▸ h9⟩

/-! ## Lines of a file -/

theorem getlinesGo_eq (s cur : Str) (acc : List Str) : splitGo c!"\n" s cur acc = acc ++ getlinesGo s cur := by
  induction s generalizing cur acc with
  | nil => cases cur <;> simp [splitGo, getlinesGo]
  | cons x xs ih =>
    simp only [splitGo, getlinesGo]
    by_cases hx : x = '\n'
    · subst hx
      simp [Str.compareAt, ih]
    · simp [Str.compareAt, hx, ih]

theorem getlines_eq_split (s : Str) : getlines s = split s c!"\n" := by
  unfold getlines split; rw [getlinesGo_eq]; simp

end Binder
