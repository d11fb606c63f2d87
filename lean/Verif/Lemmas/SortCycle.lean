import Verif.Lemmas.Bind
import Verif.Lemmas.Sort

namespace Binder

open Spec

theorem classNames_append (a b : List SortItem) : classNames (a ++ b) = classNames a ++ classNames b := by
  simp [classNames]

/-- Class names are unique: two elements with the same class name are at the same position. -/
theorem same_position {l u v u' v' : List SortItem} {b b' : SortItem} {C C' : Rec} (hn : (classNames l).Nodup)
    (h : l = u ++ b :: v) (h' : l = u' ++ b' :: v') (hb : b.decl.record = some C) (hb' : b'.decl.record = some C')
    (he : C.name = C'.name) : u = u' ∧ b = b' := by
  have key : ∀ {u v u' v' : List SortItem} {b b' : SortItem} {C C' : Rec}, l = u ++ b :: v → l = u' ++ b' :: v' →
      b.decl.record = some C → b'.decl.record = some C' → C.name = C'.name → ∀ m, u' = u ++ m → m = [] := by
    intro u v u' v' b b' C C' h h' hb hb' he m hm
    cases m with
    | nil => rfl
    | cons x xs =>
      exfalso
      have e := h.symm.trans h'
      rw [hm] at e
      simp at e
      obtain ⟨rfl, e⟩ := e
      rw [h, e] at hn
      simp only [classNames_append] at hn
      have : classNames (b :: (xs ++ b' :: v')) = C.name :: (classNames xs ++ C'.name :: classNames v') := by
        simp [classNames, hb, hb', List.filterMap_append]
      rw [this] at hn
      have := (List.nodup_append.1 hn).2.1
      rw [List.nodup_cons] at this
      exact this.1 (by simp [he])
  rcases List.append_eq_append_iff.1 (h.symm.trans h') with ⟨m, h1, h2⟩ | ⟨m, h1, h2⟩
  · have := key h h' hb hb' he m h1
    subst this
    simp at h1 h2
    exact ⟨h1.symm, h2.1⟩
  · have := key h' h hb' hb he.symm m h1
    subst this
    simp at h1 h2
    exact ⟨h1, h2.1.symm⟩

theorem dependsPlus_before {l : List SortItem} (hn : (classNames l).Nodup) (hs : SortedFrom 0 l) {q p : Rec}
    (h : DependsPlus l q p) {u v : List SortItem} {b : SortItem} (hl : l = u ++ b :: v) (hb : b.decl.record = some q) :
    p.name ∈ classNames u := by
  induction h generalizing u v b with
  | one h =>
    obtain ⟨b', hb', hr, hnd⟩ := h
    obtain ⟨u', v', e⟩ := List.append_of_mem hb'
    obtain ⟨rfl, rfl⟩ := same_position hn hl e hb hr rfl
    exact hs u b v hl (Nat.zero_le _) _ hnd
  | @more q p o h h2 ih =>
    obtain ⟨b', hb', hr, hnd⟩ := h
    obtain ⟨u', v', e⟩ := List.append_of_mem hb'
    obtain ⟨rfl, rfl⟩ := same_position hn hl e hb hr rfl
    have hp := hs u b v hl (Nat.zero_le _) _ hnd
    obtain ⟨b1, hb1, C1, hC1, hname⟩ := mem_classNames.1 hp
    obtain ⟨u1, v1, e1⟩ := List.append_of_mem hb1
    have hl1 : l = u1 ++ b1 :: (v1 ++ b :: v) := by rw [hl, e1]; simp
    have hfirst : ∃ b2 ∈ l, b2.decl.record = some p := by
      cases h2 with
      | one h => obtain ⟨b2, hb2, hr2, _⟩ := h; exact ⟨b2, hb2, hr2⟩
      | more h _ => obtain ⟨b2, hb2, hr2, _⟩ := h; exact ⟨b2, hb2, hr2⟩
    obtain ⟨b2, hb2, hr2⟩ := hfirst
    obtain ⟨u2, v2, e2⟩ := List.append_of_mem hb2
    obtain ⟨rfl, rfl⟩ := same_position hn hl1 e2 hC1 hr2 hname
    have := ih hl1 hr2
    rw [e1, classNames_append]
    simp [this]

theorem dependsPlus_perm {l l' : List SortItem} (hp : l.Perm l') {q p : Rec} (h : DependsPlus l q p) : DependsPlus l' q p := by
  induction h with
  | one h => exact .one (dependsOn_perm hp h)
  | more h _ ih => exact .more (dependsOn_perm hp h) ih

theorem no_cycle_of_done {l l' : List SortItem} (hn : (classNames l).Nodup) (h : Loop.Returns sortStep l (some l')) (c : Rec) :
    ¬ DependsPlus l c c := by
  intro hc
  obtain ⟨hp, hs⟩ := sort_done h
  have hn' : (classNames l').Nodup := (hp.filterMap _).nodup_iff.2 hn
  have hc' := dependsPlus_perm hp.symm hc
  have hfirst : ∃ b ∈ l', b.decl.record = some c := by
    cases hc' with
    | one h => obtain ⟨b2, hb2, hr2, _⟩ := h; exact ⟨b2, hb2, hr2⟩
    | more h _ => obtain ⟨b2, hb2, hr2, _⟩ := h; exact ⟨b2, hb2, hr2⟩
  obtain ⟨b, hb, hr⟩ := hfirst
  obtain ⟨u, v, e⟩ := List.append_of_mem hb
  have := dependsPlus_before hn' hs hc' e hr
  rw [e, classNames_append] at hn'
  have h2 := List.nodup_append.1 hn'
  exact h2.2.2 c.name this c.name (by simp [classNames, hr]) rfl

/-! ## Order independence of the closure -/

theorem mem_firstSeen_iff {offers : List Decl} (hid : ∀ a ∈ offers, ∀ b ∈ offers, a.ident = b.ident → a = b) (d : Decl) :
    d ∈ firstSeen offers ↔ d ∈ offers := by
  refine ⟨mem_firstSeen, fun h => ?_⟩
  obtain ⟨e, he, hi⟩ := firstSeen_ident h
  rw [← hid e (mem_firstSeen he) d h hi]; exact he

theorem denotes_iff {offers : List Decl} (hid : ∀ a ∈ offers, ∀ b ∈ offers, a.ident = b.ident → a = b)
    (hty : ∀ a ∈ offers, ∀ b ∈ offers, a.typeName = b.typeName → a.typeName ≠ none → a = b) (t : Str) (d : Decl) :
    Denotes (firstSeen offers) t d ↔ d ∈ firstSeen offers ∧ d.typeName = some t := by
  constructor
  · rintro ⟨b, a, e, ht, _⟩; exact ⟨by rw [e]; simp, ht⟩
  · rintro ⟨hm, ht⟩
    obtain ⟨b, a, e⟩ := List.append_of_mem hm
    refine ⟨b, a, e, ht, ?_⟩
    intro x hx hxt
    have hxm : x ∈ firstSeen offers := by rw [e]; simp [hx]
    have := hty d (mem_firstSeen hm) x (mem_firstSeen hxm) (by rw [ht, hxt]) (by rw [ht]; simp)
    subst this
    have hn := firstSeen_nodup offers
    rw [e] at hn
    simp only [List.map_append, List.map_cons] at hn
    have := (List.nodup_append.1 hn).2.1
    rw [List.nodup_cons] at this
    exact this.1 (List.mem_map.2 ⟨d, hx, rfl⟩)

theorem bound_transfer {o o' : List Decl} (hsub : ∀ d, d ∈ firstSeen o → d ∈ firstSeen o')
    (hty : ∀ a ∈ o, ∀ b ∈ o, a.typeName = b.typeName → a.typeName ≠ none → a = b)
    (hid : ∀ a ∈ o, ∀ b ∈ o, a.ident = b.ident → a = b)
    (hty' : ∀ a ∈ o', ∀ b ∈ o', a.typeName = b.typeName → a.typeName ≠ none → a = b)
    (hid' : ∀ a ∈ o', ∀ b ∈ o', a.ident = b.ident → a = b) {d : Decl} (h : Bound (firstSeen o) d) : Bound (firstSeen o') d := by
  induction h with
  | asked hm he hb hs => exact .asked (hsub _ hm) he hb hs
  | mentioned _ ht hden he ih =>
    rw [denotes_iff hid hty] at hden
    exact .mentioned ih ht ((denotes_iff hid' hty' _ _).2 ⟨hsub _ hden.1, hden.2⟩) he

end Binder
