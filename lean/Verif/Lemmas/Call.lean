import Verif.Spec.Call
import Verif.Lemmas.Function
import Verif.Lemmas.GenProps

/-!
# Lemmas about pybind11's choice of a function
-/

namespace Binder

open Spec

variable {V α β : Type}

theorem lookup_none_of_not_mem {n : Str} : ∀ {kw : List (Str × V)}, n ∉ kw.map (·.1) → kw.lookup n = none
  | [], _ => rfl
  | (m, v) :: kw, h => by
    simp only [List.map_cons, List.mem_cons, not_or] at h
    rw [List.lookup_cons, beq_false_of_ne h.1]
    exact lookup_none_of_not_mem h.2

theorem lookup_some_mem {n : Str} {v : V} : ∀ {kw : List (Str × V)}, kw.lookup n = some v → (n, v) ∈ kw
  | [], h => by cases h
  | (m, w) :: kw, h => by
    rw [List.lookup_cons] at h
    by_cases e : n = m
    · subst e; simp at h; subst h; exact List.mem_cons_self
    · rw [beq_false_of_ne e] at h; exact List.mem_cons_of_mem _ (lookup_some_mem h)

theorem lookup_mem_nodup {n : Str} {v : V} : ∀ {kw : List (Str × V)}, (kw.map (·.1)).Nodup → (n, v) ∈ kw → kw.lookup n = some v
  | [], _, h => by cases h
  | (m, w) :: kw, hn, h => by
    simp only [List.map_cons, List.nodup_cons] at hn
    rw [List.lookup_cons]
    rcases List.mem_cons.1 h with e | h
    · cases e; simp
    · have : n ≠ m := fun e => hn.1 (e ▸ List.mem_map.2 ⟨_, h, rfl⟩)
      rw [beq_false_of_ne this]; exact lookup_mem_nodup hn.2 h

theorem filter_none {n : Str} : ∀ {kw : List (Str × V)}, n ∉ kw.map (·.1) → kw.filter (fun x => x.1 ≠ n) = kw := by
  intro kw h
  apply List.filter_eq_self.2
  intro x hx
  simp only [ne_eq, decide_not, Bool.not_eq_eq_eq_not, Bool.not_true, decide_eq_false_iff_not]
  intro e; exact h (List.mem_map.2 ⟨x, hx, e⟩)

theorem perm_take_one {n : Str} {v : V} : ∀ {kw : List (Str × V)}, (kw.map (·.1)).Nodup → (n, v) ∈ kw →
    kw.Perm ((n, v) :: kw.filter fun x => x.1 ≠ n)
  | [], _, h => by cases h
  | (m, w) :: kw, hn, h => by
    simp only [List.map_cons, List.nodup_cons] at hn
    rcases List.mem_cons.1 h with e | h
    · cases e
      rw [List.filter_cons_of_neg (by simp), filter_none hn.1]
    · have : m ≠ n := fun e => hn.1 (e ▸ List.mem_map.2 ⟨_, h, rfl⟩)
      rw [List.filter_cons_of_pos (by simpa using this)]
      exact ((perm_take_one hn.2 h).cons _).trans (List.Perm.swap _ _ _)

theorem zip_names {ns : List Str} {vs : List V} (h : vs.length = ns.length) : (ns.zip vs).map (·.1) = ns :=
  List.map_fst_zip (by omega)

theorem drop_zip_pairs : ∀ (n : Nat) (a : List Str) (b : List V), (a.zip b).drop n = (a.drop n).zip (b.drop n)
  | 0, _, _ => rfl
  | n + 1, [], b => by simp
  | n + 1, _ :: _, [] => by simp
  | n + 1, _ :: a, _ :: b => by rw [List.zip_cons_cons, List.drop_succ_cons, drop_zip_pairs n a b, List.drop_succ_cons, List.drop_succ_cons]

theorem takeKeywords_iff : ∀ (ns : List Str) (kw : List (Str × V)) (vs : List V), (kw.map (·.1)).Nodup →
    (takeKeywords ns kw = some (vs, []) ↔ vs.length = ns.length ∧ kw.Perm (ns.zip vs))
  | [], kw, vs, _ => by
    simp only [takeKeywords, Option.some.injEq, Prod.mk.injEq, List.length_nil, List.length_eq_zero_iff, List.zip_nil_left, List.perm_nil]
    constructor
    · rintro ⟨rfl, rfl⟩; exact ⟨rfl, rfl⟩
    · rintro ⟨rfl, rfl⟩; exact ⟨rfl, rfl⟩
  | n :: ns, kw, vs, hn => by
    rw [takeKeywords]
    have hnf : ((kw.filter fun x => x.1 ≠ n).map (·.1)).Nodup := hn.sublist (List.filter_sublist.map _)
    constructor
    · cases hl : kw.lookup n with
      | none => intro h; cases h
      | some v =>
        simp only [Option.map_eq_some_iff, Prod.mk.injEq]
        rintro ⟨⟨vs', r⟩, h, rfl, rfl⟩
        obtain ⟨h1, h2⟩ := (takeKeywords_iff ns _ vs' hnf).1 h
        refine ⟨by simp [h1], ?_⟩
        rw [List.zip_cons_cons]
        exact (perm_take_one hn (lookup_some_mem hl)).trans (h2.cons _)
    · rintro ⟨h1, h2⟩
      cases vs with
      | nil => simp at h1
      | cons v vs =>
        rw [List.zip_cons_cons] at h2
        have hm : (n, v) ∈ kw := h2.mem_iff.2 List.mem_cons_self
        have hl := lookup_mem_nodup hn hm
        rw [hl]
        have h1' : vs.length = ns.length := by simpa using h1
        have hnn : (n :: ns).Nodup := by
          have := (h2.map (·.1)).nodup_iff.1 hn
          rwa [List.map_cons, zip_names h1'] at this
        have h3 : (kw.filter fun x => x.1 ≠ n).Perm (ns.zip vs) := by
          have := h2.filter (fun x => decide (x.1 ≠ n))
          rw [List.filter_cons_of_neg (by simp)] at this
          rwa [filter_none (kw := ns.zip vs) (by rw [zip_names h1']; exact (List.nodup_cons.1 hnn).1)] at this
        have h4 := (takeKeywords_iff ns _ vs hnf).2 ⟨h1', h3⟩
        simp only [h4, Option.map_some]

/-- Names for the first parameters are the names of the object, if any, and then those of the arguments, or there are none. -/
theorem arguments_sound {selfs ns : List Str} {params : List α} {obj : List V} {c : PyCall V} {ws : List V} (ho : obj.length = selfs.length)
    (hp : params.length = selfs.length + ns.length) (hk : (c.kw.map (·.1)).Nodup)
    (h : Overload.arguments ⟨if ns = [] then [] else selfs ++ ns, params⟩ ⟨obj ++ c.pos, c.kw⟩ = some ws) :
    ∃ vs, ws = obj ++ vs ∧ vs.length = ns.length ∧ c.pos <+: vs ∧ c.kw.Perm ((ns.zip vs).drop c.pos.length) := by
  have e : List.drop (obj.length + c.pos.length) (List.take params.length (if ns = [] then [] else selfs ++ ns)) = ns.drop c.pos.length := by
    by_cases hn : ns = []
    · subst hn; simp
    · rw [if_neg hn, hp, ho, List.take_of_length_le (by simp), List.drop_append, List.drop_of_length_le (by omega), List.nil_append]
      congr 1; omega
  generalize (if ns = [] then [] else selfs ++ ns) = names at h e
  unfold Overload.arguments at h
  simp only [List.length_append] at h
  split at h
  · cases h
  rename_i h1
  split at h
  · cases h
  split at h
  · cases h
  rw [e] at h
  have e2 : ∀ vs', takeKeywords (ns.drop c.pos.length) c.kw = some (vs', []) → ws = obj ++ c.pos ++ vs' →
      ∃ vs, ws = obj ++ vs ∧ vs.length = ns.length ∧ c.pos <+: vs ∧ c.kw.Perm ((ns.zip vs).drop c.pos.length) := by
    intro vs' ht hw
    obtain ⟨h2, h3⟩ := (takeKeywords_iff _ _ _ hk).1 ht
    have hlen : c.pos.length ≤ ns.length := by omega
    refine ⟨c.pos ++ vs', by rw [hw, List.append_assoc], by rw [List.length_append, h2, List.length_drop]; omega, List.prefix_append _ _, ?_⟩
    rw [drop_zip_pairs, List.drop_left]; exact h3
  split at h
  · rename_i vs' ht
    exact e2 vs' ht (by simpa using h.symm)
  · cases h

theorem arguments_complete {selfs ns : List Str} {params : List α} {obj : List V} {c : PyCall V} {vs : List V} (ho : obj.length = selfs.length)
    (hp : params.length = selfs.length + ns.length) (hk : c.Sane) (hd : NamesDiffer ns) (hs : ∀ n ∈ selfs, n ∉ c.kw.map (·.1))
    (hl : vs.length = ns.length) (hpre : c.pos <+: vs) (hperm : c.kw.Perm ((ns.zip vs).drop c.pos.length)) :
    Overload.arguments ⟨if ns = [] then [] else selfs ++ ns, params⟩ ⟨obj ++ c.pos, c.kw⟩ = some (obj ++ vs) := by
  obtain ⟨vs', rfl⟩ := hpre
  rw [drop_zip_pairs, List.drop_left] at hperm
  have hl' : vs'.length = (ns.drop c.pos.length).length := by rw [List.length_append] at hl; rw [List.length_drop]; omega
  have hle : c.pos.length ≤ ns.length := by rw [List.length_append] at hl; omega
  have e : List.drop (obj.length + c.pos.length) (List.take params.length (if ns = [] then [] else selfs ++ ns)) = ns.drop c.pos.length := by
    by_cases hn : ns = []
    · subst hn; simp
    · rw [if_neg hn, hp, ho, List.take_of_length_le (by simp), List.drop_append, List.drop_of_length_le (by omega), List.nil_append]
      congr 1; omega
  have c2 : ¬ (obj.length + c.pos.length < params.length ∧ (if ns = [] then [] else selfs ++ ns).length < params.length) := by
    rintro ⟨h1, h2⟩
    by_cases hn : ns = []
    · subst hn; simp at hp hle; omega
    · rw [if_neg hn, List.length_append] at h2; omega
  have c3 : ¬ ((if ns = [] then [] else selfs ++ ns).take (obj.length + c.pos.length)).any (fun n => (c.kw.lookup n).isSome) = true := by
    rw [List.any_eq_true]
    rintro ⟨n, hn, hm⟩
    have hn0 : ns ≠ [] := by rintro rfl; simp at hn
    rw [if_neg hn0, List.take_append, List.take_of_length_le (by omega), List.mem_append] at hn
    obtain ⟨v, hv⟩ := Option.isSome_iff_exists.1 hm
    have hmem := lookup_some_mem hv
    rcases hn with hn | hn
    · exact hs n hn (List.mem_map.2 ⟨_, hmem, rfl⟩)
    · have e : obj.length + c.pos.length - selfs.length = c.pos.length := by omega
      rw [e] at hn
      have h2 : n ∈ ns.drop c.pos.length := by
        have := hperm.mem_iff.1 hmem
        exact (List.of_mem_zip this).1
      have hdis : NamesDiffer (ns.take c.pos.length ++ ns.drop c.pos.length) := by rw [List.take_append_drop]; exact hd
      exact (List.pairwise_append.1 hdis).2.2 n hn n h2 (hk.2 _ hmem) rfl
  generalize (if ns = [] then [] else selfs ++ ns) = names at e c2 c3
  unfold Overload.arguments
  simp only [List.length_append]
  rw [if_neg (by omega), if_neg c2, if_neg c3, e, (takeKeywords_iff _ _ vs' hk.1).2 ⟨hl', hperm⟩]
  simp

/-- The values are determined by the call. -/
theorem gives_unique {ns : List Str} {c : PyCall V} {vs ws : List V} (hk : (c.kw.map (·.1)).Nodup) (h1 : Gives ns c vs) (h2 : Gives ns c ws) :
    vs = ws := by
  obtain ⟨a1, ⟨b1, rfl⟩, c1⟩ := h1
  obtain ⟨a2, ⟨b2, rfl⟩, c2⟩ := h2
  rw [drop_zip_pairs, List.drop_left] at c1 c2
  have l1 := c1.length_eq
  have l2 := c2.length_eq
  simp only [List.length_append, List.length_zip, List.length_drop] at a1 a2 l1 l2
  have hz : ∀ b : List V, c.pos.length + b.length ≤ ns.length → (ns.drop c.pos.length).zip b = ((ns.drop c.pos.length).take b.length).zip b := by
    intro b hb
    have : b.length ≤ (ns.drop c.pos.length).length := by rw [List.length_drop]; omega
    generalize ns.drop c.pos.length = l at this
    clear hb
    induction l generalizing b with
    | nil => simp
    | cons x l ih => cases b with
      | nil => simp
      | cons y b => simp only [List.length_cons, Nat.add_le_add_iff_right] at this; simp only [List.zip_cons_cons, List.length_cons, List.take_succ_cons]; rw [← ih b this]
  have hb : b1.length = b2.length := by omega
  have t1 := (takeKeywords_iff ((ns.drop c.pos.length).take b1.length) c.kw b1 hk).2 ⟨by simp; omega, (hz b1 (by omega)) ▸ c1⟩
  have t2 := (takeKeywords_iff ((ns.drop c.pos.length).take b1.length) c.kw b2 hk).2 ⟨by simp; omega, hb ▸ (hz b2 (by omega)) ▸ c2⟩
  rw [t1] at t2
  cases t2; rfl

/-! ## The choice -/

theorem dispatch_sound {can : Bool → α → V → Bool} {os : List (β × Overload α)} {c : PyCall V} {b : β} {ws : List V}
    (h : dispatch can os c = some (b, ws)) : ∃ o convert, (b, o) ∈ os ∧ o.tries can convert c = some ws ∧
      (convert = true → 1 < os.length → ∀ x ∈ os, x.2.tries can false c = none) := by
  have pass : ∀ convert, (os.findSome? fun o => (o.2.tries can convert c).map fun vs => (o.1, vs)) = some (b, ws) →
      ∃ o, (b, o) ∈ os ∧ o.tries can convert c = some ws := by
    intro convert h
    obtain ⟨⟨b', o⟩, hm, he⟩ := List.exists_of_findSome?_eq_some h
    simp only [Option.map_eq_some_iff, Prod.mk.injEq] at he
    obtain ⟨vs, h1, rfl, rfl⟩ := he
    exact ⟨o, hm, h1⟩
  unfold dispatch at h
  simp only at h
  split at h
  · obtain ⟨o, h1, h2⟩ := pass true h
    exact ⟨o, true, h1, h2, fun _ hl => by omega⟩
  · split at h
    · rename_i r hr
      cases h
      obtain ⟨o, h1, h2⟩ := pass false hr
      exact ⟨o, false, h1, h2, fun hc => by cases hc⟩
    · rename_i hr
      obtain ⟨o, h1, h2⟩ := pass true h
      refine ⟨o, true, h1, h2, fun _ _ x hx => ?_⟩
      have := (List.findSome?_eq_none_iff.1 hr) x hx
      simpa using this

theorem dispatch_some {can : Bool → α → V → Bool} {os : List (β × Overload α)} {c : PyCall V} {b : β} {o : Overload α} {ws : List V}
    (hm : (b, o) ∈ os) (h : o.tries can true c = some ws) : (dispatch can os c).isSome = true := by
  have pass : (os.findSome? fun o => (o.2.tries can true c).map fun vs => (o.1, vs)).isSome = true := by
    rw [List.findSome?_isSome_iff]
    exact ⟨(b, o), hm, by simp [h]⟩
  unfold dispatch
  simp only
  split
  · exact pass
  · split
    · rfl
    · exact pass

/-! ## Lambdas -/

theorem lookups {names : List Str} : ∀ {vs : List V}, names.Nodup → vs.length = names.length →
    names.map ((names.zip vs).lookup ·) = vs.map some := by
  induction names with
  | nil => intro vs _ h; cases vs with
    | nil => rfl
    | cons => simp at h
  | cons n ns ih =>
    intro vs hn h
    cases vs with
    | nil => simp at h
    | cons v vs =>
      obtain ⟨h1, h2⟩ := List.nodup_cons.1 hn
      rw [List.map_cons, List.map_cons, List.zip_cons_cons, List.lookup_cons_self, ← ih h2 (by simpa using h)]
      congr 1
      apply List.map_congr_left
      intro m hm
      rw [List.lookup_cons, beq_false_of_ne (fun e : m = n => h1 (e ▸ hm))]

theorem argNames_nodup (k : Nat) : (argNames k).Nodup := by
  unfold argNames
  refine List.Pairwise.map _ (fun i j h => ?_) List.nodup_range
  intro e
  exact h (natStr_injective (List.cons.inj e).2)

theorem o_not_arg (k : Nat) : c!"o" ∉ argNames k := by
  unfold argNames
  simp only [List.mem_map, not_exists, not_and]
  intro i _ e
  exact absurd (List.cons.inj e).1 (by decide)

end Binder
