import Verif.Spec.Context

namespace Binder

open Spec

/-- The class names registered by the elements of a list. -/
def classNames (l : List SortItem) : List Str := l.filterMap (fun b => b.decl.record.map (·.name))

/-- All classes that `b` needs have a namesake among `u`. -/
def Sat (u : List SortItem) (b : SortItem) : Prop := ∀ c, Needs b c → c.name ∈ classNames u

/-- Every element from position `k` on has what it needs before it. -/
def SortedFrom (k : Nat) (l : List SortItem) : Prop := ∀ u b v, l = u ++ b :: v → k ≤ u.length → Sat u b

theorem mem_classNames {l : List SortItem} {s : Str} : s ∈ classNames l ↔ ∃ b ∈ l, ∃ C, b.decl.record = some C ∧ C.name = s := by
  simp [classNames, List.mem_filterMap]

theorem rotateFrom_perm (l : List SortItem) (e : Nat) : (rotateFrom l e).Perm l := by
  unfold rotateFrom
  have h := List.perm_append_comm (l₁ := l.drop e) (l₂ := l.take e)
  rwa [List.take_append_drop] at h

theorem rotateFrom_head {l : List SortItem} {p : SortItem → Bool} {e : Nat} (h : l.findIdx? p = some e) :
    ∃ x xs, rotateFrom l e = x :: xs ∧ p x = true := by
  obtain ⟨hlt, hp, _⟩ := List.findIdx?_eq_some_iff_getElem.1 h
  refine ⟨l[e], l.drop (e + 1) ++ l.take e, ?_, hp⟩
  unfold rotateFrom
  rw [List.drop_eq_getElem_cons hlt]; rfl

theorem needed_iff {binded : List Str} {c : Rec} : isForwardNeeded binded c = true ↔ c.name ∉ binded ∧ c.builtin = false := by
  simp [isForwardNeeded]

theorem processDeps_spec (binded : List Str) (deps : List Rec) (rest : List SortItem) (rep : Bool) :
    (∀ rest' rep', processDeps binded deps rest rep = some (rest', rep') →
      rest'.Perm rest ∧
      (rep' = false → rep = false ∧ rest' = rest ∧ ∀ c ∈ deps, isForwardNeeded binded c = false) ∧
      (rep' = true → (rep = true ∧ rest' = rest) ∨
        ∃ c ∈ deps, isForwardNeeded binded c = true ∧ ∃ x xs, rest' = x :: xs ∧ x.decl.record = some c)) ∧
    (processDeps binded deps rest rep = none →
      rep = false ∧ ∃ c ∈ deps, isForwardNeeded binded c = true ∧ ∀ x ∈ rest, x.decl.record ≠ some c) := by
  induction deps generalizing rest rep with
  | nil =>
    constructor
    · intro rest' rep' h
      simp only [processDeps, Option.some.injEq, Prod.mk.injEq] at h
      obtain ⟨rfl, rfl⟩ := h
      exact ⟨List.Perm.refl _, fun h => ⟨h, rfl, by simp⟩, fun h => Or.inl ⟨h, rfl⟩⟩
    · intro h; simp [processDeps] at h
  | cons c cs ih =>
    simp only [processDeps]
    by_cases hn : isForwardNeeded binded c = true
    · rw [if_neg (by simp [hn])]
      cases hf : rest.findIdx? (fun p => p.decl.record == some c) with
      | none =>
        have hno : ∀ x ∈ rest, x.decl.record ≠ some c := by
          intro x hx he
          have := List.findIdx?_eq_none_iff.1 hf x hx
          simp [he] at this
        simp only
        cases rep with
        | false =>
          simp only [Bool.not_false, if_true]
          exact ⟨fun _ _ h => by simp at h, fun _ => ⟨trivial, c, by simp, hn, hno⟩⟩
        | true =>
          simp only [Bool.not_true, Bool.false_eq_true, if_false]
          obtain ⟨i1, i2⟩ := ih rest true
          refine ⟨?_, fun h => absurd (i2 h).1 (by simp)⟩
          intro rest' rep' h
          obtain ⟨a, b, d⟩ := i1 rest' rep' h
          refine ⟨a, fun h' => absurd (b h').1 (by simp), fun h' => ?_⟩
          rcases d h' with d | ⟨c', hc', d⟩
          · exact Or.inl ⟨trivial, d.2⟩
          · exact Or.inr ⟨c', List.mem_cons_of_mem _ hc', d⟩
      | some e =>
        simp only
        obtain ⟨x, xs, hx, hxp⟩ := rotateFrom_head hf
        obtain ⟨i1, i2⟩ := ih (rotateFrom rest e) true
        refine ⟨?_, fun h => absurd (i2 h).1 (by simp)⟩
        intro rest' rep' h
        obtain ⟨a, b, d⟩ := i1 rest' rep' h
        refine ⟨a.trans (rotateFrom_perm rest e), fun h' => absurd (b h').1 (by simp), fun h' => ?_⟩
        rcases d h' with ⟨_, d⟩ | ⟨c', hc', d⟩
        · exact Or.inr ⟨c, by simp, hn, x, xs, by rw [d, hx], by simpa using hxp⟩
        · exact Or.inr ⟨c', List.mem_cons_of_mem _ hc', d⟩
    · have hn' : isForwardNeeded binded c = false := by simpa using hn
      rw [if_pos (by simp [hn'])]
      obtain ⟨i1, i2⟩ := ih rest rep
      constructor
      · intro rest' rep' h
        obtain ⟨a, b, d⟩ := i1 rest' rep' h
        refine ⟨a, fun h' => ?_, fun h' => ?_⟩
        · obtain ⟨b1, b2, b3⟩ := b h'
          refine ⟨b1, b2, ?_⟩
          intro c' hc'
          rcases List.mem_cons.1 hc' with rfl | hc'
          · exact hn'
          · exact b3 c' hc'
        · rcases d h' with d | ⟨c', hc', d⟩
          · exact Or.inl d
          · exact Or.inr ⟨c', List.mem_cons_of_mem _ hc', d⟩
      · intro h
        obtain ⟨h1, c', hc', h2⟩ := i2 h
        exact ⟨h1, c', List.mem_cons_of_mem _ hc', h2⟩

theorem split_cons_cases {b : SortItem} {pre bs u v : List SortItem} {x : SortItem} (h : pre ++ b :: bs = u ++ x :: v)
    (hk : pre.length ≤ u.length) : (u = pre ∧ x = b) ∨ pre.length + 1 ≤ u.length := by
  rcases Nat.lt_or_ge pre.length u.length with h1 | h1
  · exact Or.inr h1
  · left
    have hl : pre.length = u.length := by omega
    obtain ⟨e1, e2⟩ := List.append_inj h hl
    exact ⟨e1.symm, by simp at e2; exact e2.1.symm⟩

theorem sortedFrom_step {pre bs : List SortItem} {b : SortItem} (hs : Sat pre b) {l : List SortItem}
    (hl : l = pre ++ b :: bs) (h : SortedFrom (pre.length + 1) l) : SortedFrom pre.length l := by
  intro u x v e hk
  rcases split_cons_cases (hl.symm.trans e) hk with ⟨rfl, rfl⟩ | h1
  · exact hs
  · exact h u x v e h1

theorem sortPass_spec (pre : List SortItem) (binded : List Str) (l : List SortItem)
    (hb : ∀ s, s ∈ binded ↔ s ∈ classNames pre) :
    (∀ l', sortPass pre binded l = .done l' → l' = pre ++ l ∧ SortedFrom pre.length l') ∧
    (∀ l', sortPass pre binded l = .again l' → ∃ u b v w x xs c, l = u ++ b :: v ∧ l' = pre ++ u ++ w ∧ w.Perm (b :: v) ∧
      SortedFrom pre.length (pre ++ u) ∧ Needs b c ∧ c.name ∉ classNames (pre ++ u) ∧ w = x :: xs ∧ x.decl.record = some c) ∧
    (sortPass pre binded l = .exit → ∃ u b v c, l = u ++ b :: v ∧ Needs b c ∧ c.name ∉ classNames (pre ++ u) ∧
      ∀ x ∈ b :: v, x.decl.record ≠ some c) := by
  induction l generalizing pre binded with
  | nil =>
    refine ⟨?_, ?_, ?_⟩
    · intro l' h; simp only [sortPass, PassEnd.done.injEq] at h; subst h
      refine ⟨by simp, ?_⟩
      intro u b v e hk
      have := congrArg List.length e
      simp at this; omega
    · intro l' h; simp [sortPass] at h
    · intro h; simp [sortPass] at h
  | cons b bs ih =>
    have lift : ∀ binded', (∀ s, s ∈ binded' ↔ s ∈ classNames (pre ++ [b])) → Sat pre b →
        (∀ l', sortPass (pre ++ [b]) binded' bs = .done l' → l' = pre ++ b :: bs ∧ SortedFrom pre.length l') ∧
        (∀ l', sortPass (pre ++ [b]) binded' bs = .again l' → ∃ u b' v w x xs c, b :: bs = u ++ b' :: v ∧ l' = pre ++ u ++ w ∧
          w.Perm (b' :: v) ∧ SortedFrom pre.length (pre ++ u) ∧ Needs b' c ∧ c.name ∉ classNames (pre ++ u) ∧ w = x :: xs ∧ x.decl.record = some c) ∧
        (sortPass (pre ++ [b]) binded' bs = .exit → ∃ u b' v c, b :: bs = u ++ b' :: v ∧ Needs b' c ∧
          c.name ∉ classNames (pre ++ u) ∧ ∀ x ∈ b' :: v, x.decl.record ≠ some c) := by
      intro binded' hb' hs
      obtain ⟨i1, i2, i3⟩ := ih (pre ++ [b]) binded' hb'
      refine ⟨?_, ?_, ?_⟩
      · intro l' h
        obtain ⟨e, hsort⟩ := i1 l' h
        have e' : l' = pre ++ b :: bs := by rw [e]; simp
        refine ⟨e', sortedFrom_step hs e' ?_⟩
        simpa using hsort
      · intro l' h
        obtain ⟨u, b', v, w, x, xs, c, h1, h2, h3, h4, h5, h6, h7, h8⟩ := i2 l' h
        refine ⟨b :: u, b', v, w, x, xs, c, by rw [h1]; simp, by rw [h2]; simp, h3, ?_, h5, by simpa using h6, h7, h8⟩
        refine sortedFrom_step (b := b) (bs := u) hs rfl ?_
        simpa using h4
      · intro h
        obtain ⟨u, b', v, c, h1, h2, h3, h4⟩ := i3 h
        exact ⟨b :: u, b', v, c, by rw [h1]; simp, h2, by simpa using h3, h4⟩
    cases hrec : b.decl.record with
    | none =>
      have e : sortPass pre binded (b :: bs) = sortPass (pre ++ [b]) binded bs := by simp [sortPass, hrec]
      rw [e]
      apply lift
      · intro s; rw [hb]; simp [classNames, hrec]
      · intro c hc; simp [Needs, hrec] at hc
    | some C =>
      obtain ⟨p1, p2⟩ := processDeps_spec binded b.deps (b :: bs) false
      cases hp : processDeps binded b.deps (b :: bs) false with
      | none =>
        have e : sortPass pre binded (b :: bs) = .exit := by simp [sortPass, hrec, hp]
        rw [e]
        refine ⟨fun _ h => by simp at h, fun _ h => by simp at h, fun _ => ?_⟩
        obtain ⟨_, c, hc, hn, hno⟩ := p2 hp
        obtain ⟨n1, n2⟩ := needed_iff.1 hn
        exact ⟨[], b, bs, c, rfl, ⟨by simp [hrec], hc, n2⟩, by simpa [hb] using n1, hno⟩
      | some pr =>
        obtain ⟨rest, rep⟩ := pr
        obtain ⟨q1, q2, q3⟩ := p1 rest rep hp
        cases rep with
        | true =>
          have e : sortPass pre binded (b :: bs) = .again (pre ++ rest) := by simp [sortPass, hrec, hp]
          rw [e]
          refine ⟨fun _ h => by simp at h, fun l' h => ?_, fun h => by simp at h⟩
          simp only [PassEnd.again.injEq] at h
          subst h
          rcases q3 rfl with ⟨h, _⟩ | ⟨c, hc, hn, x, xs, hx, hxr⟩
          · cases h
          · obtain ⟨n1, n2⟩ := needed_iff.1 hn
            refine ⟨[], b, bs, rest, x, xs, c, rfl, by simp, q1, ?_, ⟨by simp [hrec], hc, n2⟩, by simpa [hb] using n1, hx, hxr⟩
            intro u b' v e hk
            have := congrArg List.length e
            simp at this; omega
        | false =>
          have e : sortPass pre binded (b :: bs) = sortPass (pre ++ [b]) (C.name :: binded) bs := by simp [sortPass, hrec, hp]
          rw [e]
          obtain ⟨_, _, hall⟩ := q2 rfl
          apply lift
          · intro s
            simp only [List.mem_cons, hb]
            rw [mem_classNames, mem_classNames]
            constructor
            · rintro (rfl | ⟨x, hx, h⟩)
              · exact ⟨b, by simp, C, hrec, rfl⟩
              · exact ⟨x, by simp [hx], h⟩
            · rintro ⟨x, hx, C', h1, h2⟩
              simp only [List.mem_append, List.mem_singleton] at hx
              rcases hx with hx | rfl
              · exact Or.inr ⟨x, hx, C', h1, h2⟩
              · rw [hrec] at h1; cases h1; exact Or.inl h2.symm
          · intro c hc
            have := hall c hc.2.1
            simp only [isForwardNeeded, hc.2.2, Bool.not_false, Bool.and_true, Bool.not_eq_false', List.contains_iff_mem, hb] at this
            exact this

/-! ## Partial correctness -/

theorem sortStep_inl {l l' : List SortItem} (h : sortStep l = .inl l') :
    ∃ u b v w x xs c, l = u ++ b :: v ∧ l' = u ++ w ∧ w.Perm (b :: v) ∧ SortedFrom 0 u ∧ Needs b c ∧
      c.name ∉ classNames u ∧ w = x :: xs ∧ x.decl.record = some c := by
  obtain ⟨_, h2, _⟩ := sortPass_spec [] [] l (by simp [classNames])
  unfold sortStep at h
  cases hp : sortPass [] [] l with
  | exit => rw [hp] at h; simp at h
  | done l'' => rw [hp] at h; simp at h
  | again l'' =>
    rw [hp] at h; simp only [Sum.inl.injEq] at h; subst h
    obtain ⟨u, b, v, w, x, xs, c, a⟩ := h2 l'' hp
    exact ⟨u, b, v, w, x, xs, c, by simpa using a⟩

theorem sortStep_done {l l' : List SortItem} (h : sortStep l = .inr (some l')) : l' = l ∧ SortedFrom 0 l := by
  obtain ⟨h1, _, _⟩ := sortPass_spec [] [] l (by simp [classNames])
  unfold sortStep at h
  cases hp : sortPass [] [] l with
  | exit => rw [hp] at h; simp at h
  | again l'' => rw [hp] at h; simp at h
  | done l'' =>
    rw [hp] at h; simp only [Sum.inr.injEq, Option.some.injEq] at h; subst h
    obtain ⟨a, b⟩ := h1 l'' hp
    simp only [List.nil_append] at a
    subst a
    exact ⟨rfl, b⟩

theorem sortStep_exit {l : List SortItem} (h : sortStep l = .inr none) :
    ∃ u b v c, l = u ++ b :: v ∧ Needs b c ∧ c.name ∉ classNames u ∧ ∀ x ∈ b :: v, x.decl.record ≠ some c := by
  obtain ⟨_, _, h3⟩ := sortPass_spec [] [] l (by simp [classNames])
  unfold sortStep at h
  cases hp : sortPass [] [] l with
  | exit => simpa using h3 hp
  | again l'' => rw [hp] at h; simp at h
  | done l'' => rw [hp] at h; simp at h

theorem sortStep_inl_perm {l l' : List SortItem} (h : sortStep l = .inl l') : l'.Perm l := by
  obtain ⟨u, b, v, w, x, xs, c, rfl, rfl, hp, _⟩ := sortStep_inl h
  exact hp.append_left u

theorem sort_done {l l' : List SortItem} (h : Loop.Returns sortStep l (some l')) : l'.Perm l ∧ SortedFrom 0 l' := by
  have := Loop.returns_induct (step := sortStep) (fun s => s.Perm l) (fun r => ∀ l', r = some l' → l'.Perm l ∧ SortedFrom 0 l')
    (fun s s' hs he => (sortStep_inl_perm he).trans hs)
    (fun s r hs he l' hr => by subst hr; obtain ⟨rfl, h2⟩ := sortStep_done he; exact ⟨hs, h2⟩) (List.Perm.refl l) h
  exact this l' rfl

theorem sort_exit {l : List SortItem} (h : Loop.Returns sortStep l none) : ∃ b ∈ l, ∃ c, Needs b c ∧ ¬ Declared l c := by
  have := Loop.returns_induct (step := sortStep) (fun s => s.Perm l)
    (fun r => r = none → ∃ b ∈ l, ∃ c, Needs b c ∧ ¬ Declared l c)
    (fun s s' hs he => (sortStep_inl_perm he).trans hs)
    (fun s r hs he hr => by
      subst hr
      obtain ⟨u, b, v, c, rfl, h1, h2, h3⟩ := sortStep_exit he
      refine ⟨b, hs.mem_iff.1 (by simp), c, h1, ?_⟩
      rintro ⟨x, hx, hxr⟩
      have hx' := hs.mem_iff.2 hx
      simp only [List.mem_append] at hx'
      rcases hx' with hx' | hx'
      · exact h2 (mem_classNames.2 ⟨x, hx', c, hxr, rfl⟩)
      · exact h3 x hx' hxr) (List.Perm.refl l) h
  exact this rfl

/-! ## Termination -/

theorem length_le_of_nodup_subset {α : Type} [DecidableEq α] {a b : List α} (hn : a.Nodup) (h : ∀ x ∈ a, x ∈ b) : a.length ≤ b.length := by
  induction a generalizing b with
  | nil => simp
  | cons x xs ih =>
    rw [List.nodup_cons] at hn
    have hx : x ∈ b := h x (by simp)
    have := ih (b := b.erase x) hn.2 (fun y hy => by
      rw [List.mem_erase_of_ne]
      · exact h y (List.mem_cons_of_mem _ hy)
      · rintro rfl; exact hn.1 hy)
    rw [List.length_erase_of_mem hx] at this
    have : 0 < b.length := List.length_pos_of_mem hx
    simp; omega

theorem dependsPlus_snoc {l : List SortItem} {a b c : Rec} (h : DependsPlus l a b) (h' : DependsOn l b c) : DependsPlus l a c := by
  induction h with
  | one h => exact .more h (.one h')
  | more h _ ih => exact .more h (ih h')

/-- On an acyclic list the dependency relation is well founded. -/
theorem dependsOn_wf {l : List SortItem} (h : Acyclic l) : WellFounded (fun p q => DependsOn l q p) := by
  let L := l.filterMap (fun b => b.decl.record)
  have key : ∀ n (C : Rec) (vs : List Rec), vs.Nodup → (∀ v ∈ vs, v ∈ L) → (∀ v ∈ vs, DependsPlus l v C) →
      L.length - vs.length ≤ n → Acc (fun p q => DependsOn l q p) C := by
    intro n
    induction n with
    | zero =>
      intro C vs hn hs hd hl
      constructor
      intro p hp
      have hC : C ∈ L := by
        obtain ⟨b, hb, hr, _⟩ := hp
        exact List.mem_filterMap.2 ⟨b, hb, hr⟩
      have hCv : C ∉ vs := fun hm => h C (hd C hm)
      have := length_le_of_nodup_subset (a := C :: vs) (b := L) (List.nodup_cons.2 ⟨hCv, hn⟩)
        (fun x hx => by rcases List.mem_cons.1 hx with rfl | hx; exact hC; exact hs x hx)
      simp at this; omega
    | succ n ih =>
      intro C vs hn hs hd hl
      constructor
      intro p hp
      have hC : C ∈ L := by
        obtain ⟨b, hb, hr, _⟩ := hp
        exact List.mem_filterMap.2 ⟨b, hb, hr⟩
      have hCv : C ∉ vs := fun hm => h C (hd C hm)
      refine ih p (C :: vs) (List.nodup_cons.2 ⟨hCv, hn⟩) ?_ ?_ (by simp; omega)
      · intro x hx; rcases List.mem_cons.1 hx with rfl | hx; exact hC; exact hs x hx
      · intro x hx
        rcases List.mem_cons.1 hx with rfl | hx
        · exact .one hp
        · exact dependsPlus_snoc (hd x hx) hp
  exact ⟨fun C => key L.length C [] List.nodup_nil (by simp) (by simp) (by simp)⟩

open Classical in
/-- Length of the longest prefix in which every element has what it needs before it. -/
noncomputable def goodFrom : List SortItem → List SortItem → Nat
  | _, [] => 0
  | pre, b :: bs => if Sat pre b then 1 + goodFrom (pre ++ [b]) bs else 0

theorem goodFrom_le (pre l : List SortItem) : goodFrom pre l ≤ l.length := by
  induction l generalizing pre with
  | nil => simp [goodFrom]
  | cons b bs ih => simp only [goodFrom]; split; have := ih (pre ++ [b]); simp; omega; simp

theorem goodFrom_append {pre u rest : List SortItem} (h : SortedFrom pre.length (pre ++ u)) :
    goodFrom pre (u ++ rest) = u.length + goodFrom (pre ++ u) rest := by
  induction u generalizing pre with
  | nil => simp
  | cons b bs ih =>
    have hb : Sat pre b := h pre b bs rfl (Nat.le_refl _)
    have := ih (pre := pre ++ [b]) (by
      intro u' x v e hk
      refine h u' x v (by simpa using e) (by simp at hk; omega))
    simp only [List.cons_append, goodFrom, if_pos hb, this, List.length_cons, List.append_assoc, List.nil_append]
    omega

theorem goodFrom_unsat {pre rest : List SortItem} {b : SortItem} (h : ¬ Sat pre b) : goodFrom pre (b :: rest) = 0 := by
  simp [goodFrom, h]

/-- Relation on what stands at the first unsatisfied position. -/
def headRel (l : List SortItem) : Option Rec → Option Rec → Prop
  | some p, some q => DependsOn l q p
  | _, _ => False

theorem headRel_wf {l : List SortItem} (h : Acyclic l) : WellFounded (headRel l) := by
  have wf := dependsOn_wf h
  refine ⟨fun o => ?_⟩
  cases o with
  | none => exact ⟨_, fun p hp => by cases p <;> exact absurd hp (by simp [headRel])⟩
  | some C =>
    induction C using wf.induction with
    | _ C ih =>
      refine ⟨_, fun p hp => ?_⟩
      cases p with
      | none => exact absurd hp (by simp [headRel])
      | some p => exact ih p hp

noncomputable def sortMeasure (l : List SortItem) : Nat × Option Rec :=
  (l.length - goodFrom [] l, (l[goodFrom [] l]?).bind (fun b => b.decl.record))

theorem dependsOn_perm {l l' : List SortItem} (h : l.Perm l') {q p : Rec} (hd : DependsOn l q p) : DependsOn l' q p := by
  obtain ⟨b, hb, hr⟩ := hd
  exact ⟨b, h.mem_iff.1 hb, hr⟩

theorem sort_returns {l : List SortItem} (h : Acyclic l) : ∃ r, Loop.Returns sortStep l r := by
  refine Loop.returns_of_measure (Prod.Lex (· < ·) (headRel l)) (Prod.lex (⟨(· < ·), Nat.lt_wfRel.wf⟩ : WellFoundedRelation Nat) ⟨headRel l, headRel_wf h⟩).wf sortMeasure
    (fun s => s.Perm l) ?_ (List.Perm.refl l)
  intro s s' hs he
  have hperm := sortStep_inl_perm he
  obtain ⟨u, b, v, w, x, xs, c, rfl, rfl, hp, hu, hnc, hcn, rfl, hxr⟩ := sortStep_inl he
  refine ⟨hperm.trans hs, ?_⟩
  have g1 : goodFrom [] (u ++ b :: v) = u.length := by
    rw [goodFrom_append (pre := []) (by simpa using hu)]
    rw [goodFrom_unsat]; simp
    intro hs; exact hcn (by simpa using hs c hnc)
  have g2 : goodFrom [] (u ++ x :: xs) = u.length + goodFrom u (x :: xs) := by
    rw [goodFrom_append (pre := []) (by simpa using hu)]; simp
  have hlen : (u ++ x :: xs).length = (u ++ b :: v).length := hperm.length_eq
  unfold sortMeasure
  rw [g1, g2, hlen]
  rcases Nat.eq_zero_or_pos (goodFrom u (x :: xs)) with h0 | h0
  · rw [h0, Nat.add_zero]
    have e1 : (u ++ x :: xs)[u.length]? = some x := by simp
    have e2 : (u ++ b :: v)[u.length]? = some b := by simp
    rw [e1, e2]
    have : ∃ C, b.decl.record = some C := Option.isSome_iff_exists.1 hnc.1
    obtain ⟨C, hC⟩ := this
    simp only [Option.bind_some, hxr, hC]
    exact Prod.Lex.right _ (dependsOn_perm hs ⟨b, by simp, hC, hnc⟩)
  · apply Prod.Lex.left
    simp; omega

end Binder
