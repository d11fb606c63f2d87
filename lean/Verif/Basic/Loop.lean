/-!
# While loops

A C++ `while` loop is a step function that either goes on with a new state or returns.
`Loop.run step fuel s` executes at most `fuel` steps. A loop returns `r` if some amount of fuel
suffices; it diverges if no amount does.
-/

namespace Binder

/-- Execute at most `fuel` steps of a loop; `none`: still running. -/
def Loop.run {σ ρ : Type} (step : σ → σ ⊕ ρ) : Nat → σ → Option ρ
  | 0, _ => none
  | n + 1, s => match step s with
    | .inr r => some r
    | .inl s' => Loop.run step n s'

/-- Started in `s`, the loop terminates with result `r`. -/
def Loop.Returns {σ ρ : Type} (step : σ → σ ⊕ ρ) (s : σ) (r : ρ) : Prop := ∃ n, Loop.run step n s = some r

/-- Started in `s`, the loop never terminates. -/
def Loop.Diverges {σ ρ : Type} (step : σ → σ ⊕ ρ) (s : σ) : Prop := ∀ n, Loop.run step n s = none

variable {σ ρ : Type} {step : σ → σ ⊕ ρ}

theorem Loop.run_mono {n m : Nat} {s : σ} {r : ρ} (h : Loop.run step n s = some r) (hnm : n ≤ m) :
    Loop.run step m s = some r := by
  induction n generalizing m s with
  | zero => simp [Loop.run] at h
  | succ n ih =>
    cases m with
    | zero => omega
    | succ m =>
      simp only [Loop.run] at h ⊢
      split at h
      · exact h
      · exact ih h (by omega)

theorem Loop.Returns.unique {s : σ} {r r' : ρ} (h : Loop.Returns step s r) (h' : Loop.Returns step s r') : r = r' := by
  obtain ⟨n, hn⟩ := h
  obtain ⟨m, hm⟩ := h'
  have h1 := Loop.run_mono hn (Nat.le_max_left n m)
  have h2 := Loop.run_mono hm (Nat.le_max_right n m)
  rw [h1] at h2
  exact Option.some.inj h2

theorem Loop.Diverges.not_returns {s : σ} {r : ρ} (h : Loop.Diverges step s) : ¬ Loop.Returns step s r := by
  rintro ⟨n, hn⟩; rw [h n] at hn; cases hn

theorem Loop.returns_of_inr {s : σ} {r : ρ} (h : step s = .inr r) : Loop.Returns step s r :=
  ⟨1, by simp [Loop.run, h]⟩

theorem Loop.returns_of_inl {s s' : σ} {r : ρ} (h : step s = .inl s') (h' : Loop.Returns step s' r) :
    Loop.Returns step s r := by
  obtain ⟨n, hn⟩ := h'
  exact ⟨n + 1, by simp [Loop.run, h, hn]⟩

theorem Loop.returns_inl_iff {s s' : σ} {r : ρ} (h : step s = .inl s') :
    Loop.Returns step s r ↔ Loop.Returns step s' r := by
  refine ⟨?_, Loop.returns_of_inl h⟩
  rintro ⟨n, hn⟩
  cases n with
  | zero => simp [Loop.run] at hn
  | succ n => simp only [Loop.run, h] at hn; exact ⟨n, hn⟩

theorem Loop.returns_inr_iff {s : σ} {r r' : ρ} (h : step s = .inr r') :
    Loop.Returns step s r ↔ r = r' :=
  ⟨fun h' => h'.unique (Loop.returns_of_inr h), fun e => e ▸ Loop.returns_of_inr h⟩

/-- If an invariant holds and every step from it goes on and re-establishes it, the loop diverges. -/
theorem Loop.diverges_of_invariant (P : σ → Prop) (hstep : ∀ s, P s → ∃ s', step s = .inl s' ∧ P s')
    {s : σ} (h : P s) : Loop.Diverges step s := by
  intro n
  induction n generalizing s with
  | zero => rfl
  | succ n ih =>
    obtain ⟨s', h1, h2⟩ := hstep s h
    simp only [Loop.run, h1]
    exact ih h2

/-- Partial correctness: an invariant preserved by every step holds when the loop returns. -/
theorem Loop.returns_induct (P : σ → Prop) (Q : ρ → Prop)
    (hstep : ∀ s s', P s → step s = .inl s' → P s') (hret : ∀ s r, P s → step s = .inr r → Q r)
    {s : σ} {r : ρ} (h : P s) (hr : Loop.Returns step s r) : Q r := by
  obtain ⟨n, hn⟩ := hr
  induction n generalizing s with
  | zero => simp [Loop.run] at hn
  | succ n ih =>
    simp only [Loop.run] at hn
    split at hn
    · rename_i r' hr'; cases hn; exact hret s _ h hr'
    · rename_i s' hs'; exact ih (hstep s s' h hs') hn

/-- Total correctness: if a measure in a well-founded relation decreases at each step, the loop returns. -/
theorem Loop.returns_of_measure {α : Type} (R : α → α → Prop) (wf : WellFounded R) (μ : σ → α) (P : σ → Prop)
    (hstep : ∀ s s', P s → step s = .inl s' → P s' ∧ R (μ s') (μ s))
    {s : σ} (h : P s) : ∃ r, Loop.Returns step s r := by
  have key : ∀ a, ∀ s, μ s = a → P s → ∃ r, Loop.Returns step s r := by
    intro a
    induction a using wf.induction with
    | _ a ih =>
      intro s ha hP
      cases hs : step s with
      | inr r => exact ⟨r, Loop.returns_of_inr hs⟩
      | inl s' =>
        obtain ⟨hP', hR⟩ := hstep s s' hP hs
        obtain ⟨r, hr⟩ := ih (μ s') (ha ▸ hR) s' rfl hP'
        exact ⟨r, Loop.returns_of_inl hs hr⟩
  exact key _ s rfl h

/-- Number of steps bounded by a natural-number measure. -/
theorem Loop.run_of_measure (μ : σ → Nat) (P : σ → Prop)
    (hstep : ∀ s s', P s → step s = .inl s' → P s' ∧ μ s' < μ s)
    {s : σ} (h : P s) : ∃ r, Loop.run step (μ s + 1) s = some r := by
  have key : ∀ n, ∀ s, μ s ≤ n → P s → ∃ r, Loop.run step (n + 1) s = some r := by
    intro n
    induction n with
    | zero =>
      intro s hs hP
      cases hst : step s with
      | inr r => exact ⟨r, by simp [Loop.run, hst]⟩
      | inl s' => obtain ⟨_, hlt⟩ := hstep s s' hP hst; omega
    | succ n ih =>
      intro s hs hP
      cases hst : step s with
      | inr r => exact ⟨r, by simp [Loop.run, hst]⟩
      | inl s' =>
        obtain ⟨hP', hlt⟩ := hstep s s' hP hst
        obtain ⟨r, hr⟩ := ih s' (by omega) hP'
        exact ⟨r, by rw [Loop.run, hst]; exact hr⟩
  exact key _ s (Nat.le_refl _) h

end Binder
