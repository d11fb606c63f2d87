import Verif.Lemmas.GenProps
import Verif.Lemmas.Namespaces
import Verif.Lemmas.FileSystem

namespace Binder

open Spec

theorem splitGo_base (c : Char) (s line : Str) (h : c ∉ s) : splitGo [c] s line [] = if line ++ s = [] then [] else [line ++ s] := by
  induction s generalizing line with
  | nil => simp [splitGo]
  | cons d ds ih =>
    rw [splitGo_single_cons, if_neg (fun e => h (by simp [e])), ih _ (fun e => h (by simp [e]))]
    simp

theorem gen_name {c : Config} {o : Opts} {bs : List SortItem} (hn : bs.length + 1 < 2 ^ 32) {files : List OutFile}
    (hr : Loop.Returns (genStep c o bs) GenState.init files) {F : OutFile} (hF : F ∈ files) :
    ∃ np n b, b ∈ bs ∧ np = fileKey o b ∧ F.name = fileStem o np n ++ c!".cpp" ∧ F.fn = functionName (fileStem o np n) :=
  gen_each hn hr (fun F => ∃ np n b, b ∈ bs ∧ np = fileKey o b ∧ F.name = fileStem o np n ++ c!".cpp" ∧
    F.fn = functionName (fileStem o np n))
    (fun _ _ b _ _ hb _ hw => ⟨_, _, b, List.mem_of_getElem? hb, rfl, hw.name, hw.fn⟩) F hF

theorem names_of_keys {o : Opts} {files : List OutFile} {keys : List (Str × Nat)}
    (h : files.map (fun F => (F.name, F.fn)) = keys.map fun p => (fileStem o p.1 p.2 ++ c!".cpp", functionName (fileStem o p.1 p.2))) :
    files.map (·.name) = keys.map (fun p => fileStem o p.1 p.2 ++ c!".cpp") ∧
    files.map (·.fn) = keys.map (fun p => functionName (fileStem o p.1 p.2)) := by
  have h1 := congrArg (List.map Prod.fst) h
  have h2 := congrArg (List.map Prod.snd) h
  simp only [List.map_map] at h1 h2
  exact ⟨h1, h2⟩

theorem write_pre {c : Config} {o : Opts} {bs : List SortItem} {s s' : GenState} {b : SortItem} {F : OutFile} {k : Nat}
    (hw : WriteSpec c o bs s s' b F k) {x : SortItem} (hx : Piece.code x ∈ F.body) : x.pre <:+: F.pre := by
  rw [hw.body] at hx
  rw [hw.pre]
  cases hsk : (c.binderForNamespaces b.decl.ns).isSome with
  | true => rw [hsk] at hx; simp at hx; exact absurd hx (startBody_no_code x)
  | false =>
    rw [hsk] at hx
    simp only [Bool.false_eq_true, if_false, List.mem_append] at hx ⊢
    rcases hx with hx | hx
    · exact absurd hx (startBody_no_code x)
    · obtain ⟨u, v, e⟩ := List.append_of_mem (code_mem_emit hx).1
      rw [e]
      exact ⟨u.flatMap SortItem.pre, v.flatMap SortItem.pre, by simp⟩

theorem startBody_call {c : Config} {ns : Str} {first : Bool} {f N : Str}
    (h : Piece.nsCall f N ∈ startBody c ns first ∨ Piece.addOn f N ∈ startBody c ns first) : ns = N := by
  cases first with
  | false => rw [startBody_not_first] at h; simp at h
  | true =>
    cases h1 : c.binderForNamespaces ns with
    | some g => rw [startBody_first_ns h1] at h; simp at h; exact h.2.symm
    | none =>
      cases h2 : c.addOnBinderForNamespaces ns with
      | some g => rw [startBody_first_addOn h1 h2] at h; simp at h; exact h.2.symm
      | none => rw [startBody_none h1 h2] at h; simp at h

theorem write_call_ns {c : Config} {o : Opts} {bs : List SortItem} {s s' : GenState} {b : SortItem} {F : OutFile} {k : Nat}
    (hw : WriteSpec c o bs s s' b F k) {f N : Str} (h : Piece.nsCall f N ∈ F.body ∨ Piece.addOn f N ∈ F.body) : b.decl.ns = N := by
  refine startBody_call (c := c) (f := f) (first := s.entrance b.decl.ns == 0) ?_
  rw [hw.body] at h
  have hno : ∀ p ∈ (if (c.binderForNamespaces b.decl.ns).isSome then [] else emit o s.traced ((bs.drop s.i).take k)),
      (∃ n id, p = Piece.trace n id) ∨ ∃ b, p = Piece.code b := by
    intro p hp
    split at hp
    · simp at hp
    · exact emit_only _ _ _ p hp
  simp only [List.mem_append] at h
  rcases h with (h | h) | (h | h)
  · exact .inl h
  · rcases hno _ h with ⟨_, _, h⟩ | ⟨_, h⟩ <;> cases h
  · exact .inr h
  · rcases hno _ h with ⟨_, _, h⟩ | ⟨_, h⟩ <;> cases h

theorem emit_traced {o : Opts} (ht : o.trace = true) {t : Nat} {l : List SortItem} {u v : List Piece} {b : SortItem}
    (h : emit o t l = u ++ .code b :: v) : ∃ u' n, u = u' ++ [.trace n b.decl.ident] := by
  induction l generalizing t u with
  | nil => simp [emit] at h
  | cons x xs ih =>
    simp only [emit, entry, ht, if_true] at h
    by_cases hc : x.code.length != 0
    · rw [if_pos hc] at h
      match u, h with
      | [], h => simp at h
      | [p], h =>
        simp at h
        obtain ⟨h1, h2, _⟩ := h
        subst h2
        exact ⟨[], t, by simp [h1]⟩
      | p :: q :: u, h =>
        simp at h
        obtain ⟨u', n, hu⟩ := ih h.2.2
        exact ⟨p :: q :: u', n, by simp [hu]⟩
    · rw [if_neg hc] at h
      match u, h with
      | [], h => simp at h
      | p :: u, h =>
        simp at h
        obtain ⟨u', n, hu⟩ := ih h.2
        exact ⟨p :: u', n, by simp [hu]⟩

theorem write_traced {c : Config} {o : Opts} (ht : o.trace = true) {bs : List SortItem} {s s' : GenState} {b : SortItem} {F : OutFile} {k : Nat}
    (hw : WriteSpec c o bs s s' b F k) {u v : List Piece} {x : SortItem} (h : F.body = u ++ .code x :: v) :
    ∃ u' n, u = u' ++ [.trace n x.decl.ident] := by
  rw [hw.body] at h
  have hx : Piece.code x ∈ u ++ Piece.code x :: v := by simp
  rw [← h] at hx
  split at h
  · rename_i hsk
    rw [if_pos hsk, List.append_nil] at hx
    exact absurd hx (startBody_no_code x)
  · rcases List.append_eq_append_iff.1 h with ⟨m, h1, h2⟩ | ⟨m, h1, h2⟩
    · obtain ⟨u', n, hu⟩ := emit_traced ht h2
      exact ⟨startBody c b.decl.ns (s.entrance b.decl.ns == 0) ++ u', n, by rw [h1, hu]; simp⟩
    · cases m with
      | nil =>
        simp at h2
        obtain ⟨u', n, hu⟩ := emit_traced ht (u := []) (h2.symm)
        simp at hu
      | cons p ps =>
        simp at h2
        exact absurd (by rw [h1, ← h2.1]; simp) (startBody_no_code (c := c) (ns := b.decl.ns) (first := s.entrance b.decl.ns == 0) x)

theorem flatMap_terminated (c : Char) (ls : List Str) : ls.flatMap (fun l => l ++ [c]) = terminated c ls := by
  induction ls with
  | nil => rfl
  | cons l ls ih => simp [terminated, ih]

theorem terminated_last {c : Char} {ls : List Str} : terminated c ls = [] ∨ (terminated c ls).getLast? = some c := by
  induction ls with
  | nil => exact .inl rfl
  | cons l ls ih =>
    right
    rw [terminated]
    rcases ih with h | h
    · rw [h]; simp
    · rw [List.getLast?_append, List.getLast?_cons, h]; simp

theorem isLines_of_eq {c : Char} {ls : List Str} {t : Str} (h : ∀ l ∈ ls, c ∉ l) (he : t = terminated c ls) : IsLines c t ls := by
  subst he
  exact ⟨h, by rw [if_pos terminated_last]⟩

theorem safe_ne_newline {x : Char} (h : safeChar x = true) : x ≠ '\n' := by rintro rfl; revert h; decide

theorem gen_no_newline {c : Config} {o : Opts} {bs : List SortItem} (hn : bs.length + 1 < 2 ^ 32) {files : List OutFile}
    (hr : Loop.Returns (genStep c o bs) GenState.init files) (hroot : '\n' ∉ o.root) {F : OutFile} (hF : F ∈ files) :
    '\n' ∉ F.name ∧ '\n' ∉ F.fn := by
  obtain ⟨np, n, b, hb, hk, h1, h2⟩ := gen_name hn hr hF
  have hnp : '\n' ∉ np := by
    rw [hk, fileKey]
    split
    · simp [hroot]
    · intro h; exact safe_ne_newline (fileNamePrefix_safe h) rfl
  have hst : '\n' ∉ fileStem o np n := by
    intro h
    unfold fileStem at h
    have hd : '\n' ∉ natStr n := fun h => by have := natStr_digit h; revert this; decide
    split at h
    · simp [hnp, hd] at h
    · split at h <;> simp [hnp, hd] at h
  refine ⟨by rw [h1]; simp [hst], ?_⟩
  rw [h2, functionName]
  intro h
  simp only [List.mem_append] at h
  rcases h with h | h
  · simp at h
  · rcases mem_replaceAll h with h | h
    · exact hst h
    · simp at h

theorem replace_join (xs : List Str) (hc : ∀ x ∈ xs, IsComponent x) : replaceAll (joinNs xs) c!"::" c!"." = [ '.' ].intercalate xs := by
  have hno : ∀ x : Str, ':' ∉ x → ∀ s : Str, replaceGo c!"::" c!"." 0 (x ++ s) = x ++ replaceGo c!"::" c!"." 0 s := by
    intro x hx s
    refine replaceGo_skip x s ?_
    intro j hj hp
    have : (x ++ s).drop j = x[j] :: (x ++ s).drop (j + 1) := by
      rw [List.drop_eq_getElem_cons (by simp; omega)]
      rw [List.getElem_append_left hj]
    rw [this] at hp
    obtain ⟨r, hr⟩ := hp
    simp at hr
    exact hx (by rw [hr.1]; exact List.getElem_mem hj)
  unfold replaceAll
  induction xs with
  | nil => simp [joinNs, replaceGo, List.intercalate]
  | cons x xs ih =>
    have hx := (hc x (by simp)).2
    cases xs with
    | nil =>
      have := hno x hx []
      simp only [List.append_nil] at this
      simp [joinNs, this, replaceGo, List.intercalate]
    | cons y ys =>
      have ih := ih (fun z hz => hc z (by simp [hz]))
      rw [joinNs, List.append_assoc, hno x hx, replaceGo_hit (by simp), ih]
      simp [List.intercalate, List.intersperse]

theorem mem_sortInput {r : Registry} {st : BindState} {b : SortItem} (h : b ∈ sortInput r st) :
    ∃ i, r.binders[i]? = some b.decl ∧ b.code = st.code i := by
  unfold sortInput at h
  obtain ⟨⟨d, i⟩, hm, rfl⟩ := List.mem_map.1 h
  exact ⟨i, List.mem_zipIdx_iff_getElem?.1 hm, rfl⟩

theorem registerClasses_some {l : List SortItem} {reg : List Rec}
    (h : ∀ u b v, l = u ++ b :: v → ∀ base ∈ b.deps, base ∈ reg ∨ ∃ b' ∈ u, b'.decl.record = some base) :
    (registerClasses reg l).isSome = true := by
  induction l generalizing reg with
  | nil => rfl
  | cons x xs ih =>
    have h0 : ∀ c ∈ x.deps, c ∈ reg := by
      intro c hc
      rcases h [] x xs rfl c hc with h | ⟨_, h, _⟩
      · exact h
      · simp at h
    rw [registerClasses, if_pos h0]
    apply ih
    intro u b v hu base hb
    rcases h (x :: u) b v (by simp [hu]) base hb with h | ⟨b', hb', hr⟩
    · left; split <;> simp [h]
    · rcases List.mem_cons.1 hb' with rfl | hb'
      · left; rw [hr]; simp
      · exact .inr ⟨b', hb', hr⟩

end Binder
