import Verif.Spec.Context

namespace Binder

open Spec

/-- What every reachable registry satisfies. -/
structure RegInv (r : Registry) : Prop where
  ids : ∀ s, s ∈ r.ids ↔ ∃ d ∈ r.binders, d.ident = s
  nodup : (r.binders.map (·.ident)).Nodup
  some_ : ∀ t j, r.types t = some j → ∃ d, r.binders[j]? = some d ∧ Denotes r.binders t d
  none_ : ∀ t, r.types t = none → ∀ d ∈ r.binders, d.typeName ≠ some t

theorem RegInv.empty : RegInv Registry.empty where
  ids := by simp [Registry.empty]
  nodup := by simp [Registry.empty]
  some_ := by simp [Registry.empty]
  none_ := by simp [Registry.empty]

theorem RegInv.add {r : Registry} (h : RegInv r) (b : Decl) : RegInv (r.add b) := by
  unfold Registry.add
  split
  · exact h
  · rename_i hc
    have hc' : ¬ ∃ d ∈ r.binders, d.ident = b.ident := by
      rw [← h.ids]; simpa using hc
    refine ⟨?_, ?_, ?_, ?_⟩
    · intro s
      simp only [List.mem_cons, h.ids, List.mem_append, List.mem_singleton, List.not_mem_nil, or_false]
      constructor
      · rintro (rfl | ⟨d, hd, rfl⟩)
        · exact ⟨b, Or.inr rfl, rfl⟩
        · exact ⟨d, Or.inl hd, rfl⟩
      · rintro ⟨d, hd | rfl, rfl⟩
        · exact Or.inr ⟨d, hd, rfl⟩
        · exact Or.inl rfl
    · simp only [List.map_append, List.map_cons, List.map_nil]
      refine List.nodup_append.2 ⟨h.nodup, by simp, ?_⟩
      intro a ha c hcc
      simp only [List.mem_singleton] at hcc
      subst hcc
      rintro rfl
      simp only [List.mem_map] at ha
      exact hc' ha
    · intro t j hj
      simp only at hj ⊢
      have old : r.types t = some j → b.typeName ≠ some t →
          ∃ d, (r.binders ++ [b])[j]? = some d ∧ Denotes (r.binders ++ [b]) t d := by
        intro hj hbt
        obtain ⟨d, hd, bf, af, e, ht, haf⟩ := h.some_ t j hj
        refine ⟨d, ?_, bf, af ++ [b], by rw [e]; simp, ht, ?_⟩
        · rw [List.getElem?_append_left]; exact hd
          exact (List.getElem?_eq_some_iff.1 hd).1
        · intro x hx
          simp only [List.mem_append, List.mem_singleton] at hx
          rcases hx with hx | rfl
          · exact haf x hx
          · exact hbt
      cases hb : b.typeName with
      | none => rw [hb] at hj; exact old hj (by simp [hb])
      | some t0 =>
        rw [hb] at hj
        simp only at hj
        split at hj
        · rename_i he; subst he
          cases hj
          exact ⟨b, by simp, r.binders, [], rfl, hb, by simp⟩
        · rename_i he
          exact old hj (by rw [hb]; intro h'; exact he (Option.some.inj h').symm)
    · intro t ht d hd
      simp only at ht hd
      cases hb : b.typeName with
      | none =>
        rw [hb] at ht
        simp only [List.mem_append, List.mem_singleton] at hd
        rcases hd with hd | rfl
        · exact h.none_ t ht d hd
        · simp [hb]
      | some t0 =>
        rw [hb] at ht
        simp only at ht
        split at ht
        · cases ht
        · rename_i he
          simp only [List.mem_append, List.mem_singleton] at hd
          rcases hd with hd | rfl
          · exact h.none_ t ht d hd
          · rw [hb]; intro h'; exact he (Option.some.inj h').symm

theorem RegInv.foldl {r : Registry} (h : RegInv r) (offers : List Decl) : RegInv (offers.foldl Registry.add r) := by
  induction offers generalizing r with
  | nil => exact h
  | cons d ds ih => exact ih (h.add d)

theorem RegInv.register (offers : List Decl) : RegInv (register offers) := RegInv.empty.foldl offers

theorem add_binders {r : Registry} (h : RegInv r) (b : Decl) :
    (r.add b).binders = if ∃ d ∈ r.binders, d.ident = b.ident then r.binders else r.binders ++ [b] := by
  unfold Registry.add
  by_cases hc : ∃ d ∈ r.binders, d.ident = b.ident
  · rw [if_pos hc, if_pos]
    simpa using (h.ids b.ident).2 hc
  · rw [if_neg hc, if_neg]
    simpa [h.ids] using hc

theorem foldl_add_binders {r : Registry} (h : RegInv r) (offers : List Decl) :
    (offers.foldl Registry.add r).binders =
      r.binders ++ (firstSeen offers).filter (fun e => ∀ d ∈ r.binders, d.ident ≠ e.ident) := by
  induction offers generalizing r with
  | nil => simp [firstSeen]
  | cons b bs ih =>
    rw [List.foldl_cons, ih (h.add b), add_binders h b]
    by_cases hc : ∃ d ∈ r.binders, d.ident = b.ident
    · obtain ⟨d0, hd0, he0⟩ := hc
      rw [if_pos ⟨d0, hd0, he0⟩]
      congr 1
      rw [firstSeen, List.filter_cons, if_neg (by simp; exact ⟨d0, hd0, he0⟩), List.filter_filter]
      apply List.filter_congr
      intro e _
      simp only [ne_eq, Bool.decide_and, decide_not]
      by_cases h1 : ∀ d ∈ r.binders, ¬ d.ident = e.ident
      · have : ¬ e.ident = b.ident := fun h2 => h1 d0 hd0 (he0.trans h2.symm)
        simp [h1, this]
      · simp [h1]
    · rw [if_neg hc, List.append_assoc]
      congr 1
      rw [firstSeen, List.filter_cons, if_pos (by simpa using hc), List.filter_filter]
      simp only [List.singleton_append]
      congr 1
      apply List.filter_congr
      intro e _
      simp only [List.mem_append, List.mem_singleton, ne_eq, Bool.decide_and, decide_not]
      by_cases h1 : ∀ d ∈ r.binders, ¬ d.ident = e.ident
      · by_cases h2 : e.ident = b.ident
        · have : ¬ ∀ d, (d ∈ r.binders ∨ d = b) → ¬ d.ident = e.ident := fun h => h b (Or.inr rfl) h2.symm
          simp [h1, h2, this]
        · have : ∀ d, (d ∈ r.binders ∨ d = b) → ¬ d.ident = e.ident := by
            rintro d (hd | rfl)
            · exact h1 d hd
            · exact fun h => h2 h.symm
          simp [h2]
          exact ⟨fun h d hd => h d (Or.inl hd), fun _ => this⟩
      · have : ¬ ∀ d, (d ∈ r.binders ∨ d = b) → ¬ d.ident = e.ident := fun h => h1 (fun d hd => h d (Or.inl hd))
        simp [h1, this]

theorem register_binders (offers : List Decl) : (register offers).binders = firstSeen offers := by
  unfold register
  rw [foldl_add_binders RegInv.empty]
  simp [Registry.empty]

theorem mem_firstSeen {offers : List Decl} {d : Decl} (h : d ∈ firstSeen offers) : d ∈ offers := by
  induction offers with
  | nil => simpa [firstSeen] using h
  | cons b bs ih =>
    simp only [firstSeen, List.mem_cons, List.mem_filter] at h
    rcases h with rfl | ⟨h, _⟩
    · simp
    · exact List.mem_cons_of_mem _ (ih h)

theorem firstSeen_sublist (offers : List Decl) : (firstSeen offers).Sublist offers := by
  induction offers with
  | nil => simp [firstSeen]
  | cons b bs ih => simp only [firstSeen]; exact (List.filter_sublist.trans ih).cons_cons b

theorem firstSeen_ident {offers : List Decl} {d : Decl} (h : d ∈ offers) : ∃ e ∈ firstSeen offers, e.ident = d.ident := by
  induction offers with
  | nil => simp at h
  | cons b bs ih =>
    rcases List.mem_cons.1 h with rfl | h
    · exact ⟨d, by simp [firstSeen], rfl⟩
    · obtain ⟨e, he, hi⟩ := ih h
      by_cases hb : e.ident = b.ident
      · exact ⟨b, by simp [firstSeen], by rw [← hb, hi]⟩
      · exact ⟨e, by simp [firstSeen, he, hb], hi⟩

theorem firstSeen_nodup (offers : List Decl) : ((firstSeen offers).map (·.ident)).Nodup := by
  rw [← register_binders]; exact (RegInv.register offers).nodup

/-- Positions of elements with pairwise distinct identifiers are determined by the element. -/
theorem getElem?_inj_ident {ds : List Decl} (h : (ds.map (·.ident)).Nodup) {i j : Nat} {d : Decl}
    (hi : ds[i]? = some d) (hj : ds[j]? = some d) : i = j := by
  have h1 := List.getElem?_eq_some_iff.1 hi
  have h2 := List.getElem?_eq_some_iff.1 hj
  obtain ⟨l1, e1⟩ := h1
  obtain ⟨l2, e2⟩ := h2
  have hp := List.pairwise_iff_getElem.1 h
  rcases Nat.lt_trichotomy i j with hlt | rfl | hlt
  · exact (hp i j (by simpa using l1) (by simpa using l2) hlt (by simp [e1, e2])).elim
  · rfl
  · exact (hp j i (by simpa using l2) (by simpa using l1) hlt (by simp [e1, e2])).elim

theorem denotes_unique {ds : List Decl} {t : Str} {d e : Decl} (h : Denotes ds t d) (h' : Denotes ds t e) : d = e := by
  obtain ⟨b, a, e1, ht, ha⟩ := h
  obtain ⟨b', a', e2, ht', ha'⟩ := h'
  rw [e1] at e2
  rcases List.append_eq_append_iff.1 e2 with ⟨m, h1, h2⟩ | ⟨m, h1, h2⟩
  · cases m with
    | nil => simp at h2; exact h2.1
    | cons x xs =>
      simp at h2
      exact absurd ht' (ha e (by rw [h2.2]; simp))
  · cases m with
    | nil => simp at h2; exact h2.1.symm
    | cons x xs =>
      simp at h2
      exact absurd ht (ha' d (by rw [h2.2]; simp))

theorem denotes_types {r : Registry} (h : RegInv r) {t : Str} {d : Decl} (hd : Denotes r.binders t d) :
    ∃ j, r.types t = some j ∧ r.binders[j]? = some d := by
  cases ht : r.types t with
  | none =>
    obtain ⟨b, a, e, h1, _⟩ := hd
    exact absurd h1 (h.none_ t ht d (by rw [e]; simp))
  | some j =>
    obtain ⟨d', h1, h2⟩ := h.some_ t j ht
    rw [denotes_unique hd h2]
    exact ⟨j, rfl, h1⟩

end Binder
