import Verif.Spec.VectorMembers

/-!
# C120: vectors in Python behave as the docstrings say
-/

namespace Binder

open Spec

/-- Every vector has room for its elements. -/
def VecRoom {α : Type} (h : Vecs α) : Prop := ∀ i, (h i).elems.length ≤ (h i).cap

/-- The name under which each function is found. -/
theorem vectorCallee_name {name : Str} {args : List VectorArg} {f : VectorFn} (h : vectorCallee name args = some f) :
    (name, f) ∈ vectorBinderDefs ∧ takesAll f.params args = true := by
  unfold vectorCallee at h
  obtain ⟨d, hd, rfl⟩ := Option.map_eq_some_iff.1 h
  have h1 := List.mem_of_find?_eq_some hd
  have h2 := List.find?_some hd
  simp only [Bool.and_eq_true, beq_iff_eq] at h2
  have sub : ∀ d ∈ bindVectorDefs ++ vectorBinderDefs, d ∈ vectorBinderDefs := by decide
  obtain ⟨n, g⟩ := d
  exact ⟨h2.1 ▸ sub _ h1, h2.2⟩

theorem vectorCallee_some : ∀ d ∈ vectorBinderDefs, ∀ args, takesAll d.2.params args = true → vectorCallee d.1 args = some d.2 := by
  intro d hd args h
  have uniq : ∀ d ∈ vectorBinderDefs, ∀ e ∈ bindVectorDefs ++ vectorBinderDefs, e.1 = d.1 → e.2 = d.2 := by decide
  have hs : ((bindVectorDefs ++ vectorBinderDefs).find? fun e => e.1 == d.1 && takesAll e.2.params args).isSome = true := by
    rw [List.find?_isSome]
    exact ⟨d, List.mem_append_right _ hd, by simp [h]⟩
  obtain ⟨e, he⟩ := Option.isSome_iff_exists.1 hs
  have h1 := List.mem_of_find?_eq_some he
  have h2 := List.find?_some he
  simp only [Bool.and_eq_true, beq_iff_eq] at h2
  unfold vectorCallee
  rw [he, Option.map_some, uniq d hd e h1 h2.1]

/-- One call keeps the room. -/
theorem VecFnCall_room {α : Type} {max i : Nat} {f : VectorFn} {args : List VectorArg} {h h' : Vecs α} {a : Answer}
    (c : VecFnCall max i f args h h' a) (hr : VecRoom h) : VecRoom h' := by
  intro k
  cases c with
  | empty => exact hr k
  | maxSize => exact hr k
  | reserve _ _ n _ ho he _ hc =>
    by_cases hk : k = i
    · subst hk; rw [he]; exact Nat.le_trans (hr k) hc
    · rw [ho k hk]; exact hr k
  | reserveError => exact hr k
  | capacity => exact hr k
  | shrinkToFit _ _ ho he _ hc =>
    by_cases hk : k = i
    · subst hk; rw [he]; exact hc
    · rw [ho k hk]; exact hr k
  | clear _ _ ho he hc =>
    by_cases hk : k = i
    · subst hk; rw [he]; exact Nat.zero_le _
    · rw [ho k hk]; exact hr k
  | swap _ _ j hs =>
    rw [hs k]
    split
    · exact hr j
    · split
      · exact hr i
      · exact hr k

theorem expected_clear {α : Type} (i : Nat) (h : Nat → List α) :
    expectedElems ⟨i, c!"clear", []⟩ h = fun k => if k = i then [] else h k := if_pos ⟨(by decide +kernel : c!"clear" = "clear".toList), rfl⟩

theorem expected_swap {α : Type} (i j : Nat) (h : Nat → List α) :
    expectedElems ⟨i, c!"swap", [.vector j]⟩ h = fun k => if k = i then h j else if k = j then h i else h k := by
  unfold expectedElems
  rw [if_neg fun e => by cases e.2]
  exact if_pos (by decide +kernel : c!"swap" = "swap".toList)

theorem expected_other {α : Type} {i : Nat} {name : Str} {args : List VectorArg} (h : Nat → List α) (h1 : ¬ (name = c!"clear" ∧ args = []))
    (h2 : ∀ j, ¬ (name = c!"swap" ∧ args = [.vector j])) : expectedElems ⟨i, name, args⟩ h = h := by
  have lit : "clear".toList = c!"clear" ∧ "swap".toList = c!"swap" := by decide +kernel
  unfold expectedElems
  rw [lit.1, lit.2, if_neg h1]
  simp only
  split
  · rename_i j
    exact if_neg fun e => h2 j ⟨e, rfl⟩
  · rfl

/-- One call gives the expected elements. -/
theorem VecStep_elems {α : Type} {max : Nat} {c : VecCall} {h h' : Vecs α} {a : Answer} (s : VecStep max c h h' a) :
    (fun k => (h' k).elems) = expectedElems c fun k => (h k).elems := by
  obtain ⟨i, name, args⟩ := c
  unfold VecStep at s
  simp only at s
  cases hv : vectorCallee name args with
  | none =>
    rw [hv] at s
    obtain ⟨rfl, -⟩ := s
    rw [expected_other]
    · rintro ⟨rfl, rfl⟩
      rw [vectorCallee_some (c!"clear", .clear) (by decide) [] rfl] at hv
      cases hv
    · rintro j ⟨rfl, rfl⟩
      rw [vectorCallee_some (c!"swap", .swap) (by decide) [.vector j] rfl] at hv
      cases hv
  | some f =>
    rw [hv] at s
    obtain ⟨hm, -⟩ := vectorCallee_name hv
    have uniq : ∀ d ∈ vectorBinderDefs, (d.1 = c!"clear" ↔ d.2 = .clear) ∧ (d.1 = c!"swap" ↔ d.2 = .swap) := by decide
    obtain ⟨u1, u2⟩ := uniq _ hm
    simp only at u1 u2 s
    clear hv
    have keep (hc : f ≠ .clear) (hs : f ≠ .swap) (he : ∀ k, (h' k).elems = (h k).elems) :
        (fun k => (h' k).elems) = expectedElems ⟨i, name, args⟩ fun k => (h k).elems := by
      rw [expected_other _ (fun e => hc (u1.1 e.1)) fun j e => hs (u2.1 e.1)]
      exact funext he
    have other {h h' : Vecs α} (ho : Others i h h') (he : (h' i).elems = (h i).elems) (k : Nat) : (h' k).elems = (h k).elems := by
      by_cases hk : k = i
      · rw [hk, he]
      · rw [ho k hk]
    cases s with
    | empty => exact keep (by decide) (by decide) fun _ => rfl
    | maxSize => exact keep (by decide) (by decide) fun _ => rfl
    | reserve _ _ n _ ho he _ _ => exact keep (by decide) (by decide) (other ho he)
    | reserveError => exact keep (by decide) (by decide) fun _ => rfl
    | capacity => exact keep (by decide) (by decide) fun _ => rfl
    | shrinkToFit _ _ ho he _ _ => exact keep (by decide) (by decide) (other ho he)
    | clear _ _ ho he _ =>
      cases u1.2 rfl
      rw [expected_clear]
      funext k
      by_cases hk : k = i
      · rw [if_pos hk, hk, he]
      · rw [if_neg hk, ho k hk]
    | swap _ _ j hs =>
      cases u2.2 rfl
      rw [expected_swap]
      funext k
      rw [hs k]
      by_cases hk : k = i
      · rw [if_pos hk, if_pos hk]
      · rw [if_neg hk, if_neg hk]
        by_cases hj : k = j
        · rw [if_pos hj, if_pos hj]
        · rw [if_neg hj, if_neg hj]

/-- One call gives the expected answer. -/
theorem VecStep_answer {α : Type} {max : Nat} {c : VecCall} {h h' : Vecs α} {a : Answer} (hr : VecRoom h) (s : VecStep max c h h' a) :
    ExpectedAnswer max c (fun k => (h k).elems) a := by
  obtain ⟨i, name, args⟩ := c
  unfold VecStep at s
  simp only at s
  have lit : "empty".toList = c!"empty" ∧ "max_size".toList = c!"max_size" ∧ "capacity".toList = c!"capacity" ∧ "reserve".toList = c!"reserve" ∧
      "shrink_to_fit".toList = c!"shrink_to_fit" ∧ "clear".toList = c!"clear" ∧ "swap".toList = c!"swap" := by decide +kernel
  obtain ⟨l1, l2, l3, l4, l5, l6, l7⟩ := lit
  refine ⟨?_, ?_, ?_, ?_, ?_, ?_⟩ <;> simp only [l1, l2, l3, l4, l5, l6, l7]
  · rintro rfl rfl
    rw [vectorCallee_some (c!"empty", .empty) (by decide) [] rfl] at s
    cases s; rfl
  · rintro rfl rfl
    rw [vectorCallee_some (c!"max_size", .maxSize) (by decide) [] rfl] at s
    cases s; rfl
  · rintro rfl rfl
    rw [vectorCallee_some (c!"capacity", .capacity) (by decide) [] rfl] at s
    cases s
    exact ⟨_, rfl, hr i⟩
  · rintro n rfl rfl
    rw [vectorCallee_some (c!"reserve", .reserve) (by decide) [.size n] rfl] at s
    cases s with
    | reserve _ _ _ hn => rw [if_pos hn]
    | reserveError _ _ hn => rw [if_neg (Nat.not_le.2 hn)]
  · intro hn ha
    subst ha
    rcases List.mem_cons.1 hn with rfl | hn
    · rw [vectorCallee_some (c!"shrink_to_fit", .shrinkToFit) (by decide) [] rfl] at s
      cases s; rfl
    · cases List.mem_singleton.1 hn
      rw [vectorCallee_some (c!"clear", .clear) (by decide) [] rfl] at s
      cases s; rfl
  · rintro j rfl rfl
    rw [vectorCallee_some (c!"swap", .swap) (by decide) [.vector j] rfl] at s
    cases s; rfl

/-- **C120.** In every history of calls of the methods that the shipped binder gives to vectors, whatever the implementation of `std::vector`
allocates: before each call the vectors have the elements that a Python programmer expects after the calls before it, every call answers
what the docstrings say of these elements, and so at the end. -/
theorem C120_history {α : Type} (max : Nat) (l : List (VecCall × Answer)) (h h' : Vecs α) (hr : ∀ i, (h i).elems.length ≤ (h i).cap)
    (hist : VecHistory max l h h') :
    (fun k => (h' k).elems) = l.foldl (fun e c => expectedElems c.1 e) (fun k => (h k).elems) ∧
    ∀ before c after, l = before ++ c :: after →
      ExpectedAnswer max c.1 (before.foldl (fun e c => expectedElems c.1 e) fun k => (h k).elems) c.2 := by
  induction hist with
  | nil => exact ⟨rfl, fun b c a e => by simp at e⟩
  | @cons c a h h1 h2 l s _ ih =>
    have hr1 : VecRoom h1 := by
      unfold VecStep at s
      split at s
      · exact VecFnCall_room s hr
      · exact s.1 ▸ hr
    obtain ⟨i1, i2⟩ := ih hr1
    have he := VecStep_elems s
    refine ⟨by rw [i1, he]; rfl, fun b d r e => ?_⟩
    cases b with
    | nil =>
      simp only [List.nil_append, List.cons.injEq] at e
      obtain ⟨rfl, rfl⟩ := e
      exact VecStep_answer hr s
    | cons b0 b =>
      simp only [List.cons_append, List.cons.injEq] at e
      obtain ⟨rfl, rfl⟩ := e
      have := i2 b d r rfl
      rw [he] at this
      exact this

/-- **C120.** The calls that the docstrings describe raise no `TypeError`: the name is there, with these arguments. -/
theorem C120_callable {α : Type} (max : Nat) (c : VecCall) (h h' : Vecs α) (a : Answer) (s : VecStep max c h h' a)
    (hc : (c.name ∈ ["empty".toList, "max_size".toList, "capacity".toList, "shrink_to_fit".toList, "clear".toList] ∧ c.args = []) ∨
      (c.name = "reserve".toList ∧ ∃ n, c.args = [.size n]) ∨ (c.name = "swap".toList ∧ ∃ j, c.args = [.vector j])) : a ≠ .typeError := by
  have lit : "empty".toList = c!"empty" ∧ "max_size".toList = c!"max_size" ∧ "capacity".toList = c!"capacity" ∧ "reserve".toList = c!"reserve" ∧
      "shrink_to_fit".toList = c!"shrink_to_fit" ∧ "clear".toList = c!"clear" ∧ "swap".toList = c!"swap" := by decide +kernel
  obtain ⟨l1, l2, l3, l4, l5, l6, l7⟩ := lit
  simp only [l1, l2, l3, l4, l5, l6, l7] at hc
  obtain ⟨i, name, args⟩ := c
  simp only at hc
  have key : ∃ f, vectorCallee name args = some f := by
    rcases hc with ⟨hn, rfl⟩ | ⟨rfl, n, rfl⟩ | ⟨rfl, j, rfl⟩
    · simp only [List.mem_cons, List.not_mem_nil, or_false] at hn
      rcases hn with rfl | rfl | rfl | rfl | rfl
      · exact ⟨_, vectorCallee_some (c!"empty", .empty) (by decide) [] rfl⟩
      · exact ⟨_, vectorCallee_some (c!"max_size", .maxSize) (by decide) [] rfl⟩
      · exact ⟨_, vectorCallee_some (c!"capacity", .capacity) (by decide) [] rfl⟩
      · exact ⟨_, vectorCallee_some (c!"shrink_to_fit", .shrinkToFit) (by decide) [] rfl⟩
      · exact ⟨_, vectorCallee_some (c!"clear", .clear) (by decide) [] rfl⟩
    · exact ⟨_, vectorCallee_some (c!"reserve", .reserve) (by decide) [.size n] rfl⟩
    · exact ⟨_, vectorCallee_some (c!"swap", .swap) (by decide) [.vector j] rfl⟩
  obtain ⟨f, hf⟩ := key
  unfold VecStep at s
  rw [show vectorCallee (VecCall.mk i name args).name (VecCall.mk i name args).args = some f from hf] at s
  rintro rfl
  cases s

/-- The hypotheses of `C120_history` and `C120_callable` are met: two vectors are exchanged, one is cleared and asked. -/
example : let h : Vecs Nat := fun i => if i = 0 then ⟨[1, 2], 4⟩ else ⟨[3], 1⟩
    (∀ i, (h i).elems.length ≤ (h i).cap) ∧
    ∃ h' : Vecs Nat, VecHistory 100 [(⟨0, c!"swap", [.vector 1]⟩, .none), (⟨1, c!"clear", []⟩, .none), (⟨1, c!"empty", []⟩, .bool true),
      (⟨0, c!"reserve", [.size 101]⟩, .lengthError), (⟨0, c!"reserve", [.other]⟩, .typeError)] h h' ∧ (h' 0).elems = [3] ∧ (h' 1).elems = [] := by
  intro h
  refine ⟨fun i => by by_cases hi : i = 0 <;> simp [h, hi], fun i => if i = 0 then ⟨[3], 1⟩ else if i = 1 then ⟨[], 4⟩ else ⟨[3], 1⟩, ?_, rfl, rfl⟩
  refine .cons (h' := fun i => if i = 0 then ⟨[3], 1⟩ else if i = 1 then ⟨[1, 2], 4⟩ else ⟨[3], 1⟩) ?_ ?_
  · exact VecFnCall.swap _ _ 1 fun k => by by_cases h0 : k = 0 <;> by_cases h1 : k = 1 <;> simp [h, h0, h1]
  refine .cons (h' := fun i => if i = 0 then ⟨[3], 1⟩ else if i = 1 then ⟨[], 4⟩ else ⟨[3], 1⟩) ?_ ?_
  · exact VecFnCall.clear _ _ (fun k hk => by simp [show k ≠ 1 from hk]) rfl rfl
  refine .cons (VecFnCall.empty _) (.cons (VecFnCall.reserveError _ 101 (by decide)) (.cons ⟨rfl, rfl⟩ (.nil _)))

/-- C120. All other calls of these methods are rejected: Python raises `TypeError` and no vector changes. -/
theorem C120_rejected {α : Type} (max : Nat) (c : VecCall) (h h' : Vecs α) (a : Answer)
    (hc : ¬ ((c.name ∈ ["empty".toList, "max_size".toList, "capacity".toList, "shrink_to_fit".toList, "clear".toList] ∧ c.args = []) ∨
      (c.name = "reserve".toList ∧ ∃ n, c.args = [.size n]) ∨ (c.name = "swap".toList ∧ ∃ j, c.args = [.vector j]))) :
    VecStep max c h h' a ↔ h' = h ∧ a = .typeError := by
  have lit : "empty".toList = c!"empty" ∧ "max_size".toList = c!"max_size" ∧ "capacity".toList = c!"capacity" ∧ "reserve".toList = c!"reserve" ∧
      "shrink_to_fit".toList = c!"shrink_to_fit" ∧ "clear".toList = c!"clear" ∧ "swap".toList = c!"swap" := by decide +kernel
  obtain ⟨l1, l2, l3, l4, l5, l6, l7⟩ := lit
  simp only [l1, l2, l3, l4, l5, l6, l7] at hc
  obtain ⟨i, name, args⟩ := c
  simp only at hc
  unfold VecStep
  cases e : vectorCallee name args with
  | none => simp only [e]
  | some f =>
    exfalso
    obtain ⟨hm, ht⟩ := vectorCallee_name e
    apply hc
    simp only [vectorBinderDefs, List.mem_cons, Prod.mk.injEq, List.not_mem_nil, or_false] at hm
    rcases hm with ⟨rfl, rfl⟩ | ⟨rfl, rfl⟩ | ⟨rfl, rfl⟩ | ⟨rfl, rfl⟩ | ⟨rfl, rfl⟩ | ⟨rfl, rfl⟩ | ⟨rfl, rfl⟩
    case inr.inr.inl =>
      match args, ht with
      | [.size n], _ => exact .inr (.inl ⟨rfl, n, rfl⟩)
    case inr.inr.inr.inr.inr.inr =>
      match args, ht with
      | [.vector j], _ => exact .inr (.inr ⟨rfl, j, rfl⟩)
    all_goals
      match args, ht with
      | [], _ => exact .inl ⟨by decide, rfl⟩

/-- A call to which `C120_rejected` applies: `v.reserve()` without its argument. -/
example (h : Vecs Nat) : VecStep 100 ⟨0, "reserve".toList, []⟩ h h .typeError := by
  have l : "reserve".toList = c!"reserve" := by decide +kernel
  rw [l]
  exact ⟨rfl, rfl⟩

/-- C120. Every call has an outcome, whatever the name and the arguments are, so that `C120_history` and `C120_callable` speak of all
programs. -/
theorem C120_outcome {α : Type} (max : Nat) (c : VecCall) (h : Vecs α) (hr : ∀ i, (h i).elems.length ≤ (h i).cap) : ∃ h' a, VecStep max c h h' a := by
  obtain ⟨i, name, args⟩ := c
  unfold VecStep
  cases e : vectorCallee name args with
  | none => exact ⟨h, .typeError, rfl, rfl⟩
  | some f =>
    obtain ⟨-, ht⟩ := vectorCallee_name e
    simp only
    cases f with
    | reserve =>
      match args, ht with
      | [.size n], _ =>
        by_cases hn : n ≤ max
        · refine ⟨fun j => if j = i then ⟨(h i).elems, n + (h i).cap⟩ else h j, .none, .reserve _ _ n hn (fun j hj => if_neg hj) ?_ ?_ ?_⟩
          · rw [if_pos rfl]
          · rw [if_pos rfl]; exact Nat.le_add_right _ _
          · rw [if_pos rfl]; exact Nat.le_add_left _ _
        · exact ⟨h, .lengthError, .reserveError h n (Nat.lt_of_not_le hn)⟩
    | swap =>
      match args, ht with
      | [.vector j], _ => exact ⟨_, .none, .swap h _ j fun _ => rfl⟩
    | empty => match args, ht with | [], _ => exact ⟨_, _, .empty h⟩
    | maxSize => match args, ht with | [], _ => exact ⟨_, _, .maxSize h⟩
    | capacity => match args, ht with | [], _ => exact ⟨_, _, .capacity h⟩
    | shrinkToFit => match args, ht with | [], _ => exact ⟨h, _, .shrinkToFit h h (fun _ _ => rfl) rfl (Nat.le_refl _) (hr i)⟩
    | clear =>
      match args, ht with
      | [], _ =>
        exact ⟨fun j => if j = i then ⟨[], (h i).cap⟩ else h j, _, .clear h _ (fun j hj => if_neg hj) (by rw [if_pos rfl]) (by rw [if_pos rfl])⟩

/-- A call to which `C120_outcome` applies. -/
example : ∃ (h' : Vecs Nat) (a : Answer), VecStep 100 ⟨1, c!"reserve", [.size 7]⟩ (fun _ => ⟨[1], 2⟩) h' a :=
  C120_outcome _ _ _ fun _ => by decide

end Binder
