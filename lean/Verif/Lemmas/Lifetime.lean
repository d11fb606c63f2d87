import Verif.Spec.Lifetime

/-!
# Lemmas about objects that Python and C++ share
-/

namespace Binder.Spec

open Cxx

/-! ## The states that are possible -/

/-- What holds of all states: numbers are used once, and what exists, is owned or was destroyed has been made. -/
structure Heap.Ok (w : Heap) : Prop where
  live : ∀ b ∈ w.live, b < w.blocks
  cxx : ∀ b ∈ w.cxx, b < w.blocks
  insts : ∀ i ∈ w.insts, i.addr.block < w.blocks ∧ i.id < w.ids
  ids : w.insts.Pairwise fun i j => i.id ≠ j.id

theorem Heap.ok_grow {w : Heap} (h : w.Ok) : w.grow.Ok where
  live := by
    intro b hb
    rcases List.mem_cons.1 hb with rfl | hb
    · exact Nat.lt_succ_self _
    · exact Nat.lt_succ_of_lt (h.live b hb)
  cxx := fun b hb => Nat.lt_succ_of_lt (h.cxx b hb)
  insts := fun i hi => ⟨Nat.lt_succ_of_lt (h.insts i hi).1, (h.insts i hi).2⟩
  ids := h.ids

theorem Heap.ok_add {w : Heap} (h : w.Ok) {a : Addr} {o : Bool} {k : Option Nat} (ha : a.block < w.blocks) : (w.add a o k).Ok where
  live := h.live
  cxx := h.cxx
  insts := by
    intro i hi
    rcases List.mem_cons.1 hi with rfl | hi
    · exact ⟨ha, Nat.lt_succ_self _⟩
    · exact ⟨(h.insts i hi).1, Nat.lt_succ_of_lt (h.insts i hi).2⟩
  ids := List.pairwise_cons.2 ⟨fun i hi => Nat.ne_of_gt (h.insts i hi).2, h.ids⟩

/-- The cases of `wrap`. -/
theorem Heap.wrap_cases (w : Heap) (c : Cast) (self : Option Nat) (a : Addr) :
    (w.wrap c self a = w ∧ ∃ i ∈ w.insts, i.addr = a) ∨ (∀ i ∈ w.insts, i.addr ≠ a) ∧
      (c = .take ∧ w.wrap c self a = w.add a true none ∨ c = .copy ∧ w.wrap c self a = w.grow.add ⟨w.blocks, 0⟩ true none ∨
       c = .refer ∧ w.wrap c self a = w.add a false none ∨ c = .internal ∧ w.wrap c self a = w.add a false self) := by
  unfold Heap.wrap
  split
  · rename_i h
    simp only [List.any_eq_true, decide_eq_true_eq] at h
    exact .inl ⟨rfl, h⟩
  · rename_i h
    simp only [List.any_eq_true, decide_eq_true_eq, not_exists, not_and] at h
    refine .inr ⟨h, ?_⟩
    cases c <;> simp

theorem Heap.ok_wrap {w : Heap} (h : w.Ok) (c : Cast) (self : Option Nat) {a : Addr} (ha : a.block < w.blocks) : (w.wrap c self a).Ok := by
  rcases w.wrap_cases c self a with ⟨e, _⟩ | ⟨_, ⟨_, e⟩ | ⟨_, e⟩ | ⟨_, e⟩ | ⟨_, e⟩⟩ <;> rw [e]
  · exact h
  · exact ok_add h ha
  · exact ok_add (ok_grow h) (Nat.lt_succ_self _)
  · exact ok_add h ha
  · exact ok_add h ha

theorem Heap.ok_step {gs : Getter → Prop} {p : Bool} {w w' : Heap} (h : w.Ok) (hs : Happens gs p w w') : w'.Ok := by
  cases hs with
  | make => exact ok_add (ok_grow h) (Nat.lt_succ_self _)
  | cxxMake =>
    have := ok_grow h
    exact ⟨this.live, fun b hb => (List.mem_cons.1 hb).elim (fun e => by subst e; exact Nat.lt_succ_self _) (this.cxx b), this.insts, this.ids⟩
  | cxxDestroy hb _ =>
    exact ⟨fun b hb => h.live b (List.mem_filter.1 hb).1, fun b hb => h.cxx b (List.mem_filter.1 hb).1, h.insts, h.ids⟩
  | gives _ _ => exact ok_wrap (ok_grow h) _ _ (Nat.lt_succ_self _)
  | internal _ _ hs _ ha => exact ok_wrap h _ _ (ha ▸ (h.insts _ hs).1)
  | borrowed _ _ _ ha => exact ok_wrap h _ _ (h.live _ ha)
  | field hs _ ha => exact ok_wrap h _ _ (ha ▸ (h.insts _ hs).1)
  | @forget i _ _ =>
    refine ⟨fun b hb => ?_, fun b hb => ?_, fun j hj => ?_, h.ids.filter _⟩
    · cases ho : i.owns <;> simp only [ho, Bool.false_eq_true, if_true, if_false] at hb
      · exact h.live b hb
      · exact h.live b (List.mem_filter.1 hb).1
    · cases ho : i.owns <;> simp only [ho, Bool.false_eq_true, if_true, if_false] at hb <;> exact h.cxx b hb
    · have := h.insts j (List.mem_filter.1 hj).1
      cases ho : i.owns <;> simp only [Bool.false_eq_true, if_true, if_false] <;> exact this

theorem PossibleHeap.ok {gs : Getter → Prop} {p : Bool} {w : Heap} (h : PossibleHeap gs p w) : w.Ok := by
  induction h with
  | start => exact ⟨by simp, by simp, by simp, .nil⟩
  | step _ hs ih => exact Heap.ok_step ih hs

/-- Owners are sound: an owner owns a complete object, that exists, that C++ does not destroy, and that has no other owner. -/
structure Heap.Owned (w : Heap) : Prop where
  cxx : ∀ b ∈ w.cxx, b ∈ w.live
  insts : ∀ i ∈ w.insts, i.owns = true → i.addr.part = 0 ∧ i.addr.block ∈ w.live ∧ i.addr.block ∉ w.cxx
  one : ∀ i ∈ w.insts, ∀ j ∈ w.insts, i.owns = true → j.owns = true → i.addr.block = j.addr.block → i.id = j.id
  gone : w.destroyed.Nodup ∧ ∀ a ∈ w.destroyed, a.part = 0 ∧ a.block ∉ w.live ∧ a.block < w.blocks

theorem Heap.owned_grow {w : Heap} (hk : w.Ok) (h : w.Owned) : w.grow.Owned where
  cxx := fun b hb => List.mem_cons_of_mem _ (h.cxx b hb)
  insts := fun i hi ho => ⟨(h.insts i hi ho).1, List.mem_cons_of_mem _ (h.insts i hi ho).2.1, (h.insts i hi ho).2.2⟩
  one := h.one
  gone := by
    refine ⟨h.gone.1, fun a ha => ⟨(h.gone.2 a ha).1, ?_, Nat.lt_succ_of_lt (h.gone.2 a ha).2.2⟩⟩
    intro hm
    rcases List.mem_cons.1 hm with e | hm
    · exact absurd (h.gone.2 a ha).2.2 (by omega)
    · exact (h.gone.2 a ha).2.1 hm

/-- A Python object that owns nothing. -/
theorem Heap.owned_refer {w : Heap} (h : w.Owned) (a : Addr) (k : Option Nat) : (w.add a false k).Owned where
  cxx := h.cxx
  insts := by
    intro i hi ho
    rcases List.mem_cons.1 hi with rfl | hi
    · cases ho
    · exact h.insts i hi ho
  one := by
    intro i hi j hj ho ho'
    rcases List.mem_cons.1 hi with rfl | hi
    · cases ho
    · rcases List.mem_cons.1 hj with rfl | hj
      · cases ho'
      · exact h.one i hi j hj ho ho'
  gone := h.gone

/-- A Python object that owns the newest block. -/
theorem Heap.owned_new {w : Heap} (hk : w.Ok) (h : w.Owned) (k : Option Nat) : (w.grow.add ⟨w.blocks, 0⟩ true k).Owned where
  cxx := (owned_grow hk h).cxx
  insts := by
    intro i hi ho
    rcases List.mem_cons.1 hi with rfl | hi
    · exact ⟨rfl, List.mem_cons_self, fun hc => Nat.lt_irrefl _ (hk.cxx _ hc)⟩
    · exact (owned_grow hk h).insts i hi ho
  one := by
    intro i hi j hj ho ho' e
    rcases List.mem_cons.1 hi with rfl | hi
    · rcases List.mem_cons.1 hj with rfl | hj
      · rfl
      · exact absurd (hk.insts j hj).1 (by rw [← e]; exact Nat.lt_irrefl _)
    · rcases List.mem_cons.1 hj with rfl | hj
      · exact absurd (hk.insts i hi).1 (by rw [e]; exact Nat.lt_irrefl _)
      · exact h.one i hi j hj ho ho' e
  gone := (owned_grow hk h).gone

theorem Heap.owned_wrap {w : Heap} (hk : w.Ok) (h : w.Owned) (c : Cast) (hc : c ≠ .take) (self : Option Nat) (a : Addr) :
    (w.wrap c self a).Owned := by
  rcases w.wrap_cases c self a with ⟨e, _⟩ | ⟨_, ⟨e', _⟩ | ⟨_, e⟩ | ⟨_, e⟩ | ⟨_, e⟩⟩
  · rw [e]; exact h
  · exact absurd e' hc
  · rw [e]; exact owned_new hk h none
  · rw [e]; exact owned_refer h a none
  · rw [e]; exact owned_refer h a self

theorem Heap.owned_step {gs : Getter → Prop} (hgs : ∀ g, gs g → g.promise ≠ .gives → castOf g.kind g.policy ≠ .take) {p : Bool} {w w' : Heap}
    (hk : w.Ok) (h : w.Owned) (hs : Happens gs p w w') : w'.Owned := by
  cases hs with
  | make => exact owned_new hk h none
  | cxxMake =>
    have hg := owned_grow hk h
    refine ⟨?_, ?_, hg.one, hg.gone⟩
    · intro b hb
      rcases List.mem_cons.1 hb with rfl | hb
      · exact List.mem_cons_self
      · exact hg.cxx b hb
    · intro i hi ho
      have := hg.insts i hi ho
      refine ⟨this.1, this.2.1, ?_⟩
      intro hm
      rcases List.mem_cons.1 hm with e | hm
      · exact Nat.lt_irrefl _ (e ▸ (hk.insts i hi).1)
      · exact this.2.2 hm
  | @cxxDestroy b hb _ =>
    refine ⟨?_, ?_, h.one, ?_, ?_⟩
    · intro c hc
      have := List.mem_filter.1 hc
      exact List.mem_filter.2 ⟨h.cxx c this.1, this.2⟩
    · intro i hi ho
      have := h.insts i hi ho
      refine ⟨this.1, List.mem_filter.2 ⟨this.2.1, ?_⟩, fun hc => this.2.2 (List.mem_filter.1 hc).1⟩
      simp only [decide_eq_true_eq, ne_eq]
      intro e; exact this.2.2 (e ▸ hb)
    · refine List.nodup_cons.2 ⟨?_, h.gone.1⟩
      intro hm; exact (h.gone.2 _ hm).2.1 (h.cxx b hb)
    · intro a ha
      rcases List.mem_cons.1 ha with rfl | ha
      · exact ⟨rfl, by simp [Heap.destroy], hk.cxx b hb⟩
      · exact ⟨(h.gone.2 a ha).1, fun hm => (h.gone.2 a ha).2.1 (List.mem_filter.1 hm).1, (h.gone.2 a ha).2.2⟩
  | @gives g self hg hp =>
    rcases w.grow.wrap_cases (castOf g.kind g.policy) self ⟨w.blocks, 0⟩ with ⟨e, _⟩ | ⟨_, ⟨_, e⟩ | ⟨_, e⟩ | ⟨_, e⟩ | ⟨_, e⟩⟩ <;> rw [e]
    · exact owned_grow hk h
    · exact owned_new hk h none
    · exact owned_new (ok_grow hk) (owned_grow hk h) none
    · exact owned_refer (owned_grow hk h) _ none
    · exact owned_refer (owned_grow hk h) _ self
  | internal hg hp _ _ _ => exact owned_wrap hk h _ (hgs _ hg (by rw [hp]; decide)) _ _
  | borrowed hg hp _ _ => exact owned_wrap hk h _ (hgs _ hg (by rw [hp]; decide)) _ _
  | field _ _ _ => exact owned_wrap hk h _ (by decide) _ _
  | @forget i hi _ =>
    cases ho : i.owns with
    | false =>
      simp only [Bool.false_eq_true, if_false]
      exact ⟨h.cxx, fun j hj => h.insts j (List.mem_filter.1 hj).1,
        fun j hj k hk => h.one j (List.mem_filter.1 hj).1 k (List.mem_filter.1 hk).1, h.gone⟩
    | true =>
      simp only [if_true]
      have hown := h.insts i hi ho
      refine ⟨?_, ?_, fun j hj k hk => h.one j (List.mem_filter.1 hj).1 k (List.mem_filter.1 hk).1, ?_, ?_⟩
      · intro c hc
        refine List.mem_filter.2 ⟨h.cxx c hc, ?_⟩
        simp only [decide_eq_true_eq, ne_eq]
        intro e; exact hown.2.2 (e ▸ hc)
      · intro j hj hjo
        have hj' := List.mem_filter.1 hj
        have := h.insts j hj'.1 hjo
        refine ⟨this.1, List.mem_filter.2 ⟨this.2.1, ?_⟩, this.2.2⟩
        simp only [decide_eq_true_eq, ne_eq]
        intro e
        exact absurd (h.one j hj'.1 i hi hjo ho e) (by simpa using hj'.2)
      · refine List.nodup_cons.2 ⟨?_, h.gone.1⟩
        intro hm; exact (h.gone.2 _ hm).2.1 hown.2.1
      · intro a ha
        rcases List.mem_cons.1 ha with rfl | ha
        · exact ⟨hown.1, by simp [Heap.destroy], (hk.insts i hi).1⟩
        · exact ⟨(h.gone.2 a ha).1, fun hm => (h.gone.2 a ha).2.1 (List.mem_filter.1 hm).1, (h.gone.2 a ha).2.2⟩

theorem PossibleHeap.owned {gs : Getter → Prop} (hgs : ∀ g, gs g → g.promise ≠ .gives → castOf g.kind g.policy ≠ .take) {p : Bool} {w : Heap}
    (h : PossibleHeap gs p w) : w.Owned := by
  induction h with
  | start => exact ⟨by simp, by simp, by simp, by simp⟩
  | step hp hs ih => exact Heap.owned_step hgs hp.ok ih hs

/-- Why the objects exist for which Python has objects: they are owned by them, or by C++, or by nobody, or kept alive. -/
structure Heap.Kept (w : Heap) : Prop where
  live : ∀ i ∈ w.insts, i.addr.block ∈ w.live
  why : ∀ i ∈ w.insts, i.owns = true ∨ (∀ j ∈ w.insts, j.owns = true → j.addr.block ≠ i.addr.block) ∨
    ∃ j ∈ w.insts, i.keeps = some j.id ∧ j.addr.block = i.addr.block ∧ j.id < i.id

theorem Heap.kept_grow {w : Heap} (h : w.Kept) : w.grow.Kept :=
  ⟨fun i hi => List.mem_cons_of_mem _ (h.live i hi), h.why⟩

/-- A Python object that owns a block that no other one refers to. -/
theorem Heap.kept_own {w : Heap} (h : w.Kept) {a : Addr} (hl : a.block ∈ w.live) (hn : ∀ i ∈ w.insts, i.addr.block ≠ a.block) (k : Option Nat) :
    (w.add a true k).Kept where
  live := by
    intro i hi
    rcases List.mem_cons.1 hi with rfl | hi
    · exact hl
    · exact h.live i hi
  why := by
    intro i hi
    rcases List.mem_cons.1 hi with rfl | hi
    · exact .inl rfl
    · rcases h.why i hi with h' | h' | ⟨j, hj, h'⟩
      · exact .inl h'
      · refine .inr (.inl ?_)
        intro j hj ho
        rcases List.mem_cons.1 hj with rfl | hj
        · exact (hn i hi).symm
        · exact h' j hj ho
      · exact .inr (.inr ⟨j, List.mem_cons_of_mem _ hj, h'⟩)

/-- A Python object that only refers to an object, or to a part of one that it keeps alive. -/
theorem Heap.kept_refer {w : Heap} (h : w.Kept) {a : Addr} {k : Option Nat} (hl : a.block ∈ w.live)
    (hn : (∀ j ∈ w.insts, j.owns = true → j.addr.block ≠ a.block) ∨ ∃ j ∈ w.insts, k = some j.id ∧ j.addr.block = a.block ∧ j.id < w.ids) :
    (w.add a false k).Kept where
  live := by
    intro i hi
    rcases List.mem_cons.1 hi with rfl | hi
    · exact hl
    · exact h.live i hi
  why := by
    intro i hi
    have lift : ∀ b : Nat, (∀ j ∈ w.insts, j.owns = true → j.addr.block ≠ b) → ∀ j ∈ (w.add a false k).insts, j.owns = true → j.addr.block ≠ b := by
      intro b hb j hj ho
      rcases List.mem_cons.1 hj with rfl | hj
      · cases ho
      · exact hb j hj ho
    rcases List.mem_cons.1 hi with rfl | hi
    · rcases hn with hn | ⟨j, hj, hn⟩
      · exact .inr (.inl (lift _ hn))
      · exact .inr (.inr ⟨j, List.mem_cons_of_mem _ hj, hn⟩)
    · rcases h.why i hi with h' | h' | ⟨j, hj, h'⟩
      · exact .inl h'
      · exact .inr (.inl (lift _ h'))
      · exact .inr (.inr ⟨j, List.mem_cons_of_mem _ hj, h'⟩)

theorem Heap.kept_new {w : Heap} (hk : w.Ok) (h : w.Kept) (k : Option Nat) : (w.grow.add ⟨w.blocks, 0⟩ true k).Kept :=
  kept_own (kept_grow h) List.mem_cons_self (fun i hi => Nat.ne_of_lt (hk.insts i hi).1) k

/-- What keeps the owner of a block alive: all others that refer to it. -/
theorem Heap.kept_last {w : Heap} (ho : w.Owned) (h : w.Kept) {i : Inst} (hi : i ∈ w.insts) (hio : i.owns = true)
    (hn : ∀ j ∈ w.insts, j.keeps ≠ some i.id) : ∀ (n : Nat) (j : Inst), j.id < n → j ∈ w.insts → j.addr.block = i.addr.block → j.id = i.id
  | 0, _, hlt, _, _ => by omega
  | n + 1, j, hlt, hj, e => by
    rcases h.why j hj with h' | h' | ⟨k, hk, h1, h2, h3⟩
    · exact ho.one j hj i hi h' hio e
    · exact absurd e.symm (h' i hi hio)
    · have := kept_last ho h hi hio hn n k (by omega) hk (h2.trans e)
      exact absurd (this ▸ h1) (hn j hj)

theorem Heap.kept_step {gs : Getter → Prop} (hgs : ∀ g, gs g → g.promise ≠ .gives → castOf g.kind g.policy ≠ .take)
    (hin : ∀ g, gs g → g.promise = .internal → castOf g.kind g.policy ≠ .refer) {w w' : Heap}
    (hk : w.Ok) (ho : w.Owned) (h : w.Kept) (hs : Happens gs true w w') : w'.Kept := by
  cases hs with
  | make => exact kept_new hk h none
  | cxxMake => exact ⟨(kept_grow h).live, (kept_grow h).why⟩
  | @cxxDestroy b hb hp =>
    refine ⟨fun i hi => List.mem_filter.2 ⟨h.live i hi, by simpa using hp rfl i hi⟩, h.why⟩
  | @gives g self hg hp =>
    have hnew : ∀ i ∈ w.grow.insts, i.addr.block ≠ w.blocks := fun i hi => Nat.ne_of_lt (hk.insts i hi).1
    rcases w.grow.wrap_cases (castOf g.kind g.policy) self ⟨w.blocks, 0⟩ with ⟨e, _⟩ | ⟨_, ⟨_, e⟩ | ⟨_, e⟩ | ⟨_, e⟩ | ⟨_, e⟩⟩ <;> rw [e]
    · exact kept_grow h
    · exact kept_new hk h none
    · exact kept_new (ok_grow hk) (kept_grow h) none
    · exact kept_refer (kept_grow h) List.mem_cons_self (.inl fun j hj _ => hnew j hj)
    · exact kept_refer (kept_grow h) List.mem_cons_self (.inl fun j hj _ => hnew j hj)
  | @internal g s a hg hp hs hl ha =>
    rcases w.wrap_cases (castOf g.kind g.policy) (some s.id) a with ⟨e, _⟩ | ⟨_, ⟨e', _⟩ | ⟨_, e⟩ | ⟨e', _⟩ | ⟨_, e⟩⟩
    · rw [e]; exact h
    · exact absurd e' (hgs g hg (by rw [hp]; decide))
    · rw [e]; exact kept_new hk h none
    · exact absurd e' (hin g hg hp)
    · rw [e]; exact kept_refer h (ha ▸ hl) (.inr ⟨s, hs, rfl, ha.symm, (hk.insts s hs).2⟩)
  | @borrowed g self a hg hp hc hl =>
    have hno : ∀ j ∈ w.insts, j.owns = true → j.addr.block ≠ a.block := fun j hj hjo e => (ho.insts j hj hjo).2.2 (e ▸ hc)
    rcases w.wrap_cases (castOf g.kind g.policy) self a with ⟨e, _⟩ | ⟨_, ⟨e', _⟩ | ⟨_, e⟩ | ⟨_, e⟩ | ⟨_, e⟩⟩
    · rw [e]; exact h
    · exact absurd e' (hgs g hg (by rw [hp]; decide))
    · rw [e]; exact kept_new hk h none
    · rw [e]; exact kept_refer h hl (.inl hno)
    · rw [e]; exact kept_refer h hl (.inl hno)
  | @field s a hs hl ha =>
    rcases w.wrap_cases .internal (some s.id) a with ⟨e, _⟩ | ⟨_, ⟨e', _⟩ | ⟨e', _⟩ | ⟨e', _⟩ | ⟨_, e⟩⟩
    · rw [e]; exact h
    · cases e'
    · cases e'
    · cases e'
    · rw [e]; exact kept_refer h (ha ▸ hl) (.inr ⟨s, hs, rfl, ha.symm, (hk.insts s hs).2⟩)
  | @forget i hi hn =>
    have why : ∀ j ∈ w.insts.filter (·.id ≠ i.id), j.owns = true ∨ (∀ k ∈ w.insts.filter (·.id ≠ i.id), k.owns = true → k.addr.block ≠ j.addr.block) ∨
        ∃ k ∈ w.insts.filter (·.id ≠ i.id), j.keeps = some k.id ∧ k.addr.block = j.addr.block ∧ k.id < j.id := by
      intro j hj
      have hj' := (List.mem_filter.1 hj).1
      rcases h.why j hj' with h' | h' | ⟨k, hk', h1, h2⟩
      · exact .inl h'
      · exact .inr (.inl fun k hk => h' k (List.mem_filter.1 hk).1)
      · refine .inr (.inr ⟨k, List.mem_filter.2 ⟨hk', ?_⟩, h1, h2⟩)
        simp only [decide_eq_true_eq, ne_eq]
        intro e
        exact hn j hj' (e ▸ h1)
    cases hio : i.owns with
    | false =>
      simp only [Bool.false_eq_true, if_false]
      exact ⟨fun j hj => h.live j (List.mem_filter.1 hj).1, why⟩
    | true =>
      simp only [if_true]
      refine ⟨fun j hj => ?_, why⟩
      have hj' := List.mem_filter.1 hj
      refine List.mem_filter.2 ⟨h.live j hj'.1, ?_⟩
      simp only [decide_eq_true_eq, ne_eq]
      intro e
      exact absurd (kept_last ho h hi hio hn _ j (Nat.lt_succ_self _) hj'.1 e) (by simpa using hj'.2)

theorem PossibleHeap.kept {gs : Getter → Prop} (hgs : ∀ g, gs g → g.promise ≠ .gives → castOf g.kind g.policy ≠ .take)
    (hin : ∀ g, gs g → g.promise = .internal → castOf g.kind g.policy ≠ .refer) {w : Heap} (h : PossibleHeap gs true w) : w.Kept := by
  induction h with
  | start => exact ⟨by simp, by simp⟩
  | step hp hs ih => exact Heap.kept_step hgs hin hp.ok (hp.owned hgs) ih hs

theorem inst_eq {l : List Inst} (h : l.Pairwise fun i j => i.id ≠ j.id) {i j : Inst} (hj : j ∈ l) (hi : i ∈ l) (e : j.id = i.id) : j = i := by
  induction h with
  | nil => cases hj
  | cons hx _ ih =>
    rcases List.mem_cons.1 hj with rfl | hj' <;> rcases List.mem_cons.1 hi with rfl | hi'
    · rfl
    · exact absurd e (hx _ hi')
    · exact absurd e.symm (hx _ hj')
    · exact ih hj' hi'

theorem Heap.noLeak_wrap {w : Heap} (h : NoLeak w) (c : Cast) (self : Option Nat) (a : Addr) : NoLeak (w.wrap c self a) := by
  have old : ∀ b ∈ w.live, ∀ x, b ∈ w.cxx ∨ ∃ i ∈ x :: w.insts, i.owns = true ∧ i.addr = ⟨b, 0⟩ := by
    intro b hb x
    rcases h b hb with h' | ⟨i, hi, h'⟩
    · exact .inl h'
    · exact .inr ⟨i, List.mem_cons_of_mem _ hi, h'⟩
  rcases w.wrap_cases c self a with ⟨e, _⟩ | ⟨_, ⟨_, e⟩ | ⟨_, e⟩ | ⟨_, e⟩ | ⟨_, e⟩⟩ <;> rw [e]
  · exact h
  · exact fun b hb => old b hb _
  · intro b hb
    rcases List.mem_cons.1 hb with rfl | hb
    · exact .inr ⟨_, List.mem_cons_self, rfl, rfl⟩
    · exact old b hb _
  · exact fun b hb => old b hb _
  · exact fun b hb => old b hb _

theorem PossibleHeap.noLeak {gs : Getter → Prop} (hgs : ∀ g, gs g → g.promise = .gives → castOf g.kind g.policy = .take) {p : Bool} {w : Heap}
    (h : PossibleHeap gs p w) : NoLeak w := by
  induction h with
  | start => exact fun b hb => by cases hb
  | @step w w' hp hs ih =>
    have new : NoLeak (w.grow.add ⟨w.blocks, 0⟩ true none) := by
      intro b hb
      rcases List.mem_cons.1 hb with rfl | hb
      · exact .inr ⟨_, List.mem_cons_self, rfl, rfl⟩
      · rcases ih b hb with h' | ⟨i, hi, h'⟩
        · exact .inl h'
        · exact .inr ⟨i, List.mem_cons_of_mem _ hi, h'⟩
    cases hs with
    | make => exact new
    | cxxMake =>
      intro b hb
      rcases List.mem_cons.1 hb with rfl | hb
      · exact .inl List.mem_cons_self
      · rcases ih b hb with h' | h'
        · exact .inl (List.mem_cons_of_mem _ h')
        · exact .inr h'
    | cxxDestroy _ _ =>
      intro c hc
      have := List.mem_filter.1 hc
      rcases ih c this.1 with h' | h'
      · exact .inl (List.mem_filter.2 ⟨h', this.2⟩)
      · exact .inr h'
    | @gives g self hg hpr =>
      rw [hgs g hg hpr]
      rcases w.grow.wrap_cases .take self ⟨w.blocks, 0⟩ with ⟨_, i, hi, e⟩ | ⟨_, ⟨_, e⟩ | ⟨e', _⟩ | ⟨e', _⟩ | ⟨e', _⟩⟩
      · exact absurd (hp.ok.insts i hi).1 (by rw [e]; exact Nat.lt_irrefl _)
      · rw [e]; exact new
      · cases e'
      · cases e'
      · cases e'
    | internal _ _ _ _ _ => exact Heap.noLeak_wrap ih _ _ _
    | borrowed _ _ _ _ => exact Heap.noLeak_wrap ih _ _ _
    | field _ _ _ => exact Heap.noLeak_wrap ih _ _ _
    | @forget i hi _ =>
      intro b hb
      have keep : b ∈ w.live → i.addr ≠ ⟨b, 0⟩ ∨ i.owns = false → b ∈ w.cxx ∨ ∃ j ∈ w.insts.filter (·.id ≠ i.id), j.owns = true ∧ j.addr = ⟨b, 0⟩ := by
        intro hl hne
        rcases ih b hl with h' | ⟨j, hj, h1, h2⟩
        · exact .inl h'
        · refine .inr ⟨j, List.mem_filter.2 ⟨hj, ?_⟩, h1, h2⟩
          simp only [decide_eq_true_eq, ne_eq]
          intro e
          have : j = i := inst_eq hp.ok.ids hj hi e
          subst this
          rcases hne with hne | hne
          · exact hne h2
          · rw [hne] at h1; cases h1
      cases hio : i.owns with
      | false =>
        simp only [hio, Bool.false_eq_true, if_false] at hb ⊢
        exact keep hb (.inr hio)
      | true =>
        simp only [hio, if_true] at hb ⊢
        have := List.mem_filter.1 hb
        exact keep this.1 (.inl fun e => by simp [e] at this)

end Binder.Spec
