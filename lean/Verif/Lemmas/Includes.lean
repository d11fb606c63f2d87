import Verif.Model.Includes

/-! Lemmas on the walk of `add_relevant_includes`. -/

namespace Binder

open Cxx

/-- `s'` knows at least the declarations of `s`, at levels that are not higher, and has at least its lines. -/
structure Grows (s s' : IncludeSet) : Prop where
  stack : ∀ d l, s.stack d = some l → ∃ l', s'.stack d = some l' ∧ l' ≤ l
  lines : ∀ x ∈ s.includes, x ∈ s'.includes

theorem Grows.refl (s : IncludeSet) : Grows s s := ⟨fun _ l h => ⟨l, h, Nat.le_refl _⟩, fun _ h => h⟩

theorem Grows.trans {a b c : IncludeSet} (h : Grows a b) (k : Grows b c) : Grows a c := by
  refine ⟨fun d l hd => ?_, fun x hx => k.2 x (h.2 x hx)⟩
  obtain ⟨l', h1, h2⟩ := h.1 d l hd
  obtain ⟨l'', h3, h4⟩ := k.1 d l' h1
  exact ⟨l'', h3, Nat.le_trans h4 h2⟩

theorem grows_addIncludes (s : IncludeSet) (is : List Str) : Grows s (s.addIncludes is) :=
  ⟨fun _ l h => ⟨l, h, Nat.le_refl _⟩, fun _ h => List.mem_append_left _ h⟩

/-- What `add_decl` does when it returns true. -/
theorem addDecl_some {s s' : IncludeSet} {d : Node} {l : Nat} (h : s.addDecl d l = some s') :
    s' = { s with stack := fun x => if x = d then some l else s.stack x } ∧ (∀ old, s.stack d = some old → l < old) := by
  unfold IncludeSet.addDecl at h
  split at h
  · rename_i hs
    cases h
    exact ⟨rfl, fun old ho => by rw [hs] at ho; cases ho⟩
  · rename_i old hs
    split at h
    · cases h
    · cases h
      refine ⟨rfl, fun o ho => ?_⟩
      rw [hs] at ho
      cases ho
      omega

/-- When `add_decl` returns false. -/
theorem addDecl_none {s : IncludeSet} {d : Node} {l : Nat} (h : s.addDecl d l = none) : ∃ old, s.stack d = some old ∧ old ≤ l := by
  unfold IncludeSet.addDecl at h
  split at h
  · cases h
  · rename_i old hs
    split at h
    · exact ⟨old, hs, by assumption⟩
    · cases h

theorem grows_addDecl {s s' : IncludeSet} {d : Node} {l : Nat} (h : s.addDecl d l = some s') : Grows s s' := by
  obtain ⟨rfl, hl⟩ := addDecl_some h
  refine ⟨fun x m hx => ?_, fun _ h => h⟩
  by_cases e : x = d
  · subst e
    exact ⟨l, by simp, Nat.le_of_lt (hl m hx)⟩
  · exact ⟨m, by simp [e, hx], Nat.le_refl _⟩

/-- The declarations and lines that a list of steps asks for are in `s`. -/
def Done (s : IncludeSet) (l : List Step) : Prop :=
  (∀ d m, Step.visit d m ∈ l → ∃ m', s.stack d = some m' ∧ m' ≤ m) ∧ (∀ is, Step.lines is ∈ l → ∀ x ∈ is, x ∈ s.includes)

theorem Done.mono {s s' : IncludeSet} {l : List Step} (h : Done s l) (g : Grows s s') : Done s' l := by
  refine ⟨fun d m hd => ?_, fun is hi x hx => g.2 x (h.2 is hi x hx)⟩
  obtain ⟨m', h1, h2⟩ := h.1 d m hd
  obtain ⟨m'', h3, h4⟩ := g.1 d m' h1
  exact ⟨m'', h3, Nat.le_trans h4 h2⟩

/-- What a walk that began in `s` and ended in `s'` guarantees: for every declaration whose level changed, its steps are done. -/
structure Walked (steps : Node → Nat → List Step) (s s' : IncludeSet) : Prop where
  grows : Grows s s'
  changed : ∀ d l, s'.stack d = some l → s.stack d ≠ some l → Done s' (steps d l)

theorem Walked.refl (steps : Node → Nat → List Step) (s : IncludeSet) : Walked steps s s :=
  ⟨.refl s, fun _ _ h k => absurd h k⟩

theorem Walked.trans {steps : Node → Nat → List Step} {a b c : IncludeSet} (h : Walked steps a b) (k : Walked steps b c) : Walked steps a c := by
  refine ⟨h.1.trans k.1, fun d l hc ha => ?_⟩
  by_cases hb : b.stack d = some l
  · exact (h.2 d l hb ha).mono k.1
  · exact k.2 d l hc hb

theorem runSteps_walked {steps : Node → Nat → List Step} {visit : IncludeSet → Node → Nat → Option IncludeSet}
    (hv : ∀ s d l s', visit s d l = some s' → Walked steps s s' ∧ ∃ l', s'.stack d = some l' ∧ l' ≤ l) :
    ∀ (l : List Step) (s s' : IncludeSet), runSteps visit s l = some s' → Walked steps s s' ∧ Done s' l
  | [], s, s', h => by
    cases h
    exact ⟨.refl _ _, (fun _ _ h => by cases h), (fun _ h => by cases h)⟩
  | .lines is :: rest, s, s', h => by
    rw [runSteps] at h
    obtain ⟨h1, h2⟩ := runSteps_walked hv rest _ s' h
    refine ⟨⟨(grows_addIncludes s is).trans h1.1, fun d l hd hs => h1.2 d l hd hs⟩, fun d m hd => ?_, fun js hj x hx => ?_⟩
    · cases hd with
      | tail _ hd => exact h2.1 d m hd
    · rcases List.mem_cons.1 hj with e | hj
      · cases e
        exact h1.1.2 x (List.mem_append_right _ hx)
      · exact h2.2 js hj x hx
  | .visit d l :: rest, s, s', h => by
    rw [runSteps] at h
    split at h
    · cases h
    · rename_i s1 hs1
      obtain ⟨w1, l', hl, hle⟩ := hv s d l s1 hs1
      obtain ⟨w2, h2⟩ := runSteps_walked hv rest s1 s' h
      refine ⟨w1.trans w2, fun x m hx => ?_, fun js hj x hx => ?_⟩
      · rcases List.mem_cons.1 hx with e | hx
        · cases e
          obtain ⟨l'', h3, h4⟩ := w2.1.1 _ _ hl
          exact ⟨l'', h3, Nat.le_trans h4 hle⟩
        · exact h2.1 x m hx
      · rcases List.mem_cons.1 hj with e | hj
        · cases e
        · exact h2.2 js hj x hx

theorem visitF_walked (steps : Node → Nat → List Step) : ∀ (n : Nat) (s : IncludeSet) (d : Node) (l : Nat) (s' : IncludeSet),
    visitF steps n s d l = some s' → Walked steps s s' ∧ ∃ l', s'.stack d = some l' ∧ l' ≤ l
  | 0, _, _, _, _, h => by cases h
  | n + 1, s, d, l, s', h => by
    rw [visitF] at h
    split at h
    · rename_i ha
      cases h
      exact ⟨.refl _ _, addDecl_none ha⟩
    · rename_i s1 ha
      obtain ⟨w, hd⟩ := runSteps_walked (visitF_walked steps n) _ _ _ h
      have hg := grows_addDecl ha
      obtain ⟨rfl, hl⟩ := addDecl_some ha
      obtain ⟨l', h1, h2⟩ := w.1.1 d l (by simp)
      refine ⟨⟨hg.trans w.1, fun x m hx hs => ?_⟩, l', h1, h2⟩
      by_cases hm : (if x = d then some l else s.stack x) = some m
      · by_cases e : x = d
        · subst e
          simp only [if_true, Option.some.injEq] at hm
          subst hm
          exact hd
        · rw [if_neg e] at hm
          exact absurd hm hs
      · exact w.2 x m hx hm

/-! ## The walk visits only what it must -/

/-- A property of levelled declarations that steps preserve holds for all that a walk adds. -/
theorem runSteps_sound (P : Node → Nat → Prop) (Q : Str → Prop)
    {visit : IncludeSet → Node → Nat → Option IncludeSet}
    (hv : ∀ s d l s', P d l → visit s d l = some s' → (∀ x m, s.stack x = some m → P x m) → (∀ x ∈ s.includes, Q x) →
      (∀ x m, s'.stack x = some m → P x m) ∧ (∀ x ∈ s'.includes, Q x)) :
    ∀ (l : List Step) (s s' : IncludeSet), (∀ d m, Step.visit d m ∈ l → P d m) → (∀ is, Step.lines is ∈ l → ∀ x ∈ is, Q x) →
      runSteps visit s l = some s' → (∀ x m, s.stack x = some m → P x m) → (∀ x ∈ s.includes, Q x) →
      (∀ x m, s'.stack x = some m → P x m) ∧ (∀ x ∈ s'.includes, Q x)
  | [], s, s', _, _, h, hp, hq => by cases h; exact ⟨hp, hq⟩
  | .lines is :: rest, s, s', h1, h2, h, hp, hq => by
    rw [runSteps] at h
    refine runSteps_sound P Q hv rest _ s' (fun d m hd => h1 d m (.tail _ hd)) (fun js hj => h2 js (.tail _ hj)) h hp ?_
    intro x hx
    rcases List.mem_append.1 hx with hx | hx
    · exact hq x hx
    · exact h2 is (.head _) x hx
  | .visit d l :: rest, s, s', h1, h2, h, hp, hq => by
    rw [runSteps] at h
    split at h
    · cases h
    · rename_i s1 hs1
      obtain ⟨hp1, hq1⟩ := hv s d l s1 (h1 d l (.head _)) hs1 hp hq
      exact runSteps_sound P Q hv rest s1 s' (fun d m hd => h1 d m (.tail _ hd)) (fun js hj => h2 js (.tail _ hj)) h hp1 hq1

theorem visitF_sound {steps : Node → Nat → List Step} (P : Node → Nat → Prop) (Q : Str → Prop)
    (hP : ∀ d l, P d l → ∀ d' l', Step.visit d' l' ∈ steps d l → P d' l')
    (hQ : ∀ d l, P d l → ∀ is, Step.lines is ∈ steps d l → ∀ x ∈ is, Q x) :
    ∀ (n : Nat) (s : IncludeSet) (d : Node) (l : Nat) (s' : IncludeSet), P d l → visitF steps n s d l = some s' →
      (∀ x m, s.stack x = some m → P x m) → (∀ x ∈ s.includes, Q x) → (∀ x m, s'.stack x = some m → P x m) ∧ (∀ x ∈ s'.includes, Q x)
  | 0, _, _, _, _, _, h, _, _ => by cases h
  | n + 1, s, d, l, s', hd, h, hp, hq => by
    rw [visitF] at h
    split at h
    · cases h; exact ⟨hp, hq⟩
    · rename_i s1 ha
      obtain ⟨rfl, _⟩ := addDecl_some ha
      refine runSteps_sound P Q (visitF_sound P Q hP hQ n) _ _ s' (hP d l hd) (hQ d l hd) h ?_ hq
      intro x m hx
      by_cases e : x = d
      · subst e
        simp only [if_true, Option.some.injEq] at hx
        subst hx
        exact hd
      · simp only [if_neg e] at hx
        exact hp x m hx

/-! ## More fuel gives the same answer -/

theorem runSteps_more {v w : IncludeSet → Node → Nat → Option IncludeSet} (h : ∀ s d l r, v s d l = some r → w s d l = some r) :
    ∀ (l : List Step) (s r : IncludeSet), runSteps v s l = some r → runSteps w s l = some r
  | [], _, _, hr => hr
  | .lines is :: rest, s, r, hr => by
    rw [runSteps] at hr ⊢
    exact runSteps_more h rest _ r hr
  | .visit d l :: rest, s, r, hr => by
    rw [runSteps] at hr ⊢
    split at hr
    · cases hr
    · rename_i s1 hs1
      rw [h s d l s1 hs1]
      exact runSteps_more h rest s1 r hr

theorem visitF_succ (steps : Node → Nat → List Step) : ∀ (n : Nat) (s : IncludeSet) (d : Node) (l : Nat) (r : IncludeSet),
    visitF steps n s d l = some r → visitF steps (n + 1) s d l = some r
  | 0, _, _, _, _, h => by cases h
  | n + 1, s, d, l, r, h => by
    rw [visitF] at h ⊢
    split at h
    · exact h
    · exact runSteps_more (visitF_succ steps n) _ _ r h

theorem visitF_more (steps : Node → Nat → List Step) {n m : Nat} (hnm : n ≤ m) {s : IncludeSet} {d : Node} {l : Nat} {r : IncludeSet}
    (h : visitF steps n s d l = some r) : visitF steps m s d l = some r := by
  induction hnm with
  | refl => exact h
  | step _ ih => exact visitF_succ steps _ s d l r ih

/-! ## Termination -/

/-- The measure that each visit of a declaration lowers: declarations of `U` not seen, then the sum of the levels. -/
def unseen (U : List Node) (s : IncludeSet) : Nat := (U.filter fun d => (s.stack d).isNone).length

/-- The sum of the levels of the declarations of `U` that were seen. -/
def levelSum (U : List Node) (s : IncludeSet) : Nat := (U.map fun d => (s.stack d).getD 0).sum

/-- `s'` is not before `s` in the lexicographical order of the measure. -/
def NotLess (U : List Node) (s s' : IncludeSet) : Prop :=
  unseen U s' < unseen U s ∨ (unseen U s' = unseen U s ∧ levelSum U s' ≤ levelSum U s)

theorem grows_notLess {s s' : IncludeSet} (h : Grows s s') : ∀ U : List Node, NotLess U s s' ∧ unseen U s' ≤ unseen U s
  | [] => ⟨.inr ⟨rfl, Nat.le_refl _⟩, Nat.le_refl _⟩
  | d :: U => by
    obtain ⟨ih, ih2⟩ := grows_notLess h U
    cases hs : s.stack d with
    | none =>
      cases hs' : s'.stack d with
      | none =>
        simp only [NotLess, unseen, levelSum, List.filter_cons, List.map_cons, List.sum_cons, hs, hs', Option.isNone_none, if_true,
          List.length_cons, Option.getD_none] at ih ih2 ⊢
        omega
      | some l =>
        simp only [NotLess, unseen, levelSum, List.filter_cons, List.map_cons, List.sum_cons, hs, hs', Option.isNone_none, if_true,
          Option.isNone_some, Bool.false_eq_true, if_false,
          List.length_cons, Option.getD_none, Option.getD_some] at ih ih2 ⊢
        omega
    | some l =>
      obtain ⟨l', hs', hl⟩ := h.1 d l hs
      simp only [NotLess, unseen, levelSum, List.filter_cons, List.map_cons, List.sum_cons, hs, hs',
          Option.isNone_some, Bool.false_eq_true, if_false, Option.getD_some] at ih ih2 ⊢
      omega

theorem addDecl_less {s s' : IncludeSet} {d : Node} {l : Nat} (h : s.addDecl d l = some s') : ∀ {U : List Node}, d ∈ U →
    unseen U s' < unseen U s ∨ (unseen U s' = unseen U s ∧ levelSum U s' < levelSum U s)
  | e :: U, hd => by
    have hg := grows_notLess (grows_addDecl h) U
    by_cases hU : d ∈ U
    · have ih := addDecl_less h hU
      have hg' := grows_notLess (grows_addDecl h) [e]
      simp only [NotLess, unseen, levelSum, List.filter_cons, List.map_cons, List.sum_cons, List.filter_nil, List.map_nil, List.sum_nil] at ih hg hg' ⊢
      cases hs : s.stack e <;> cases hs' : s'.stack e <;> simp_all <;> omega
    · have e1 : e = d := by
        rcases List.mem_cons.1 hd with h | h
        · exact h.symm
        · exact absurd h hU
      subst e1
      obtain ⟨rfl, hl⟩ := addDecl_some h
      simp only [NotLess, unseen, levelSum, List.filter_cons, List.map_cons, List.sum_cons, if_true, Option.isNone_some, Bool.false_eq_true,
        if_false, Option.getD_some] at hg ⊢
      cases hs : s.stack e with
      | none =>
        simp only [Option.isNone_none, if_true, List.length_cons, Option.getD_none]
        omega
      | some old =>
        have := hl old hs
        simp only [Option.isNone_some, Bool.false_eq_true, if_false, Option.getD_some]
        omega

theorem runSteps_total {U : List Node} {steps : Node → Nat → List Step} (a b : Nat)
    (ih : ∀ s, unseen U s < a ∨ (unseen U s = a ∧ levelSum U s ≤ b) → ∀ d ∈ U, ∀ l, ∃ n r, visitF steps n s d l = some r) :
    ∀ (l : List Step) (s : IncludeSet), (∀ d m, Step.visit d m ∈ l → d ∈ U) → unseen U s < a ∨ (unseen U s = a ∧ levelSum U s ≤ b) →
      ∃ n r, runSteps (visitF steps n) s l = some r
  | [], s, _, _ => ⟨0, s, rfl⟩
  | .lines is :: rest, s, hl, hs => by
    obtain ⟨n, r, h⟩ := runSteps_total a b ih rest (s.addIncludes is) (fun d m hd => hl d m (.tail _ hd)) hs
    exact ⟨n, r, by rw [runSteps]; exact h⟩
  | .visit d m :: rest, s, hl, hs => by
    obtain ⟨n1, s1, h1⟩ := ih s hs d (hl d m (.head _)) m
    have hg := (grows_notLess (visitF_walked steps n1 s d m s1 h1).1.1 U).1
    obtain ⟨n2, r, h2⟩ := runSteps_total a b ih rest s1 (fun d m hd => hl d m (.tail _ hd)) (by unfold NotLess at hg; omega)
    refine ⟨max n1 n2, r, ?_⟩
    rw [runSteps, visitF_more steps (Nat.le_max_left n1 n2) h1]
    exact runSteps_more (fun s d l r h => visitF_more steps (Nat.le_max_right n1 n2) h) rest s1 r h2

/-- The walk ends, if it stays in a finite set of declarations. -/
theorem visitF_total {U : List Node} {steps : Node → Nat → List Step} (hU : ∀ d ∈ U, ∀ l d' l', Step.visit d' l' ∈ steps d l → d' ∈ U) :
    ∀ (a b : Nat) (s : IncludeSet), unseen U s < a ∨ (unseen U s = a ∧ levelSum U s ≤ b) → ∀ d ∈ U, ∀ l, ∃ n r, visitF steps n s d l = some r := by
  have main : ∀ (a : Nat), (∀ s, unseen U s < a → ∀ d ∈ U, ∀ l, ∃ n r, visitF steps n s d l = some r) →
      ∀ b s, unseen U s < a ∨ (unseen U s = a ∧ levelSum U s ≤ b) → ∀ d ∈ U, ∀ l, ∃ n r, visitF steps n s d l = some r := by
    intro a ha b
    induction b with
    | zero =>
      intro s hs d hd l
      rcases hs with hs | hs
      · exact ha s hs d hd l
      · cases h : s.addDecl d l with
        | none => exact ⟨1, s, by rw [visitF, h]⟩
        | some s1 =>
          have hless := addDecl_less h hd
          obtain ⟨n, r, hr⟩ := runSteps_total (U := U) (steps := steps) (a - 1) (levelSum U s1) (fun s hs d hd l => ha s (by omega) d hd l)
            (steps d l) s1 (fun d' m hm => hU d hd l d' m hm) (by omega)
          exact ⟨n + 1, r, by rw [visitF, h]; exact hr⟩
    | succ b ih =>
      intro s hs d hd l
      cases h : s.addDecl d l with
      | none => exact ⟨1, s, by rw [visitF, h]⟩
      | some s1 =>
        have hless := addDecl_less h hd
        obtain ⟨n, r, hr⟩ := runSteps_total (U := U) (steps := steps) a b ih
          (steps d l) s1 (fun d' m hm => hU d hd l d' m hm) (by omega)
        exact ⟨n + 1, r, by rw [visitF, h]; exact hr⟩
  intro a
  induction a with
  | zero => intro b; exact main 0 (by omega) b
  | succ a ih =>
    intro b
    refine main (a + 1) ?_ b
    intro s hs d hd l
    exact ih (levelSum U s) s (by omega) d hd l

end Binder
