import Verif.Spec.Comment

/-!
# Lemmas about the text of documentation comments
-/

namespace Binder

open Spec

theorem Newlines.append {s t : Str} (h1 : Newlines s) (h2 : Newlines t) : Newlines (s ++ t) := by
  intro c hc
  rcases List.mem_append.1 hc with h | h
  · exact h1 c h
  · exact h2 c h

theorem newlines_if (b : Prop) [Decidable b] : Newlines (if b then c!"\n" else []) := by
  intro c hc
  split at hc
  · simpa using hc
  · cases hc

/-- The line `after` of the last piece is at most `hi`, and if it is before `L`, there is a line end since then. -/
def Separated (after : Option Nat) (s : Str) (L hi : Nat) : Prop := Newlines s ∧ ∀ k, after = some k → k ≤ hi ∧ (k < L → s ≠ [])

theorem inOrder_line {lo hi : Nat} {c : Comment} (h : InOrder lo c hi) : lo ≤ c.line := by
  cases h <;> assumption

mutual
theorem inOrder_hi : ∀ {lo hi : Nat} (c : Comment), InOrder lo c hi → c.line ≤ hi
  | _, _, .text _ _, .text _ h => h
  | _, _, .node _ _ _ cs, .node _ h => inOrderList_hi cs h

theorem inOrderList_hi : ∀ {lo hi : Nat} (cs : List Comment), InOrderList lo cs hi → lo ≤ hi
  | _, _, [], .nil h => h
  | _, _, c :: cs, .cons h1 h2 => Nat.le_trans (inOrder_line h1) (Nat.le_trans (inOrder_hi c h1) (inOrderList_hi cs h2))
end

mutual
theorem getText_consists : ∀ (c : Comment) {lo hi : Nat} {after : Option Nat} {s : Str} {ps : List (Nat × Str)} {rest : Str},
    InOrder lo c hi → Separated after s c.line lo →
    (∀ after' s', Separated after' s' c.line hi → Consists after' ps (s' ++ rest)) →
    Consists after (pieces c ++ ps) (s ++ (getText c c.line ++ rest))
  | .text l t, lo, hi, after, s, ps, rest, .text h1 h2, ha, hc => by
    rw [← List.append_assoc]
    refine .cons ha.1 ?_ ?_
    · intro k hk hne
      have := ha.2 k hk
      exact this.2 (by simp only [Comment.line]; omega)
    · refine hc (some l) [] ⟨(by intro c h; cases h), ?_⟩
      rintro k hk
      cases hk
      exact ⟨h2, fun h => absurd h (Nat.lt_irrefl _)⟩
  | .node l p w cs, lo, hi, after, s, ps, rest, .node h1 h2, ha, hc => by
    have := getTextLoop_consists cs (L := l) (after := after) (s := s ++ if p then c!"\n" else []) (ps := ps) (rest := rest) (Nat.le_refl _) h2
      ⟨Newlines.append ha.1 (newlines_if _), ?_⟩ hc
    · simpa only [pieces, getText, Comment.line, List.append_assoc] using this
    · intro k hk
      refine ⟨Nat.le_trans (ha.2 k hk).1 h1, fun h e => (ha.2 k hk).2 h (List.append_eq_nil_iff.1 e).1⟩

theorem getTextLoop_consists : ∀ (cs : List Comment) {L lo hi : Nat} {after : Option Nat} {s : Str} {ps : List (Nat × Str)} {rest : Str},
    L ≤ lo → InOrderList lo cs hi → Separated after s L lo →
    (∀ after' s', Separated after' s' L hi → Consists after' ps (s' ++ rest)) →
    Consists after (piecesOf cs ++ ps) (s ++ (getTextLoop cs L ++ rest))
  | [], L, lo, hi, after, s, ps, rest, hL, .nil h, ha, hc => by
    simp only [piecesOf, getTextLoop, List.nil_append]
    exact hc after s ⟨ha.1, fun k hk => ⟨Nat.le_trans (ha.2 k hk).1 h, (ha.2 k hk).2⟩⟩
  | c :: cs, L, lo, hi, after, s, ps, rest, hL, .cons (mid := mid) h1 h2, ha, hc => by
    have hline := inOrder_line h1
    have hmid := inOrder_hi c h1
    have e : (if L ≠ c.line then c.line else L) = c.line := by split <;> simp_all
    have key := getText_consists c (after := after) (s := s ++ if L ≠ c.line then c!"\n" else []) (ps := piecesOf cs ++ ps)
      (rest := getTextLoop cs c.line ++ rest) h1 ?_ ?_
    · simp only [piecesOf, getTextLoop, List.append_assoc, e] at key ⊢
      exact key
    · refine ⟨Newlines.append ha.1 (newlines_if _), fun k hk => ⟨(ha.2 k hk).1, fun h e' => ?_⟩⟩
      by_cases hn : L ≠ c.line
      · simp [hn] at e'
      · have : L = c.line := by omega
        exact (ha.2 k hk).2 (by omega) (List.append_eq_nil_iff.1 e').1
    · intro after' s' ha'
      exact getTextLoop_consists cs hmid h2 ha' fun a2 s2 h => hc a2 s2 ⟨h.1, fun k hk => ⟨(h.2 k hk).1, fun hl => (h.2 k hk).2 (by omega)⟩⟩
end

end Binder
