import Verif.Lemmas.Generate
import Verif.Spec.Generate

/-!
# Invariants of the writing loop
-/

namespace Binder

open Spec

theorem codeText_append (a b : List Piece) : codeText (a ++ b) = codeText a ++ codeText b := by simp [codeText]

theorem take_written {bs : List SortItem} {i k i' : Nat} (hle : i + k ≤ bs.length)
    (h : i' = i + k ∨ (i + k = bs.length ∧ i' = bs.length + 1)) : bs.take i' = bs.take i ++ (bs.drop i).take k := by
  rw [← List.take_add]
  rcases h with h | ⟨h1, h2⟩
  · rw [h]
  · rw [h1, h2, List.take_of_length_le (by omega), List.take_of_length_le (by omega)]

theorem take_skip {bs : List SortItem} {i : Nat} {b : SortItem} (h : bs[i]? = some b) : bs.take (i + 1) = bs.take i ++ [b] := by
  rw [List.take_add, List.take_one, List.head?_drop, h]; rfl

/-! ## Declarations -/

theorem decls_emit (o : Opts) (t : Nat) (l : List SortItem) :
    (emit o t l).filterMap declOf = l.filter fun b => !b.code.isEmpty := by
  induction l generalizing t with
  | nil => simp [emit]
  | cons b bs ih =>
    simp only [emit, List.filterMap_append, ih, entry]
    have h1 : (if o.trace then [Piece.trace t b.decl.ident] else []).filterMap declOf = [] := by
      split <;> simp [declOf]
    rw [h1]
    by_cases hc : b.code = []
    · simp [hc]
    · have : b.code.length != 0 := by simpa using hc
      simp [this, hc, declOf]

theorem decls_startBody (c : Config) (ns : Str) (first : Bool) : (startBody c ns first).filterMap declOf = [] := by
  rw [List.filterMap_eq_nil_iff]
  intro p hp
  cases p with
  | code b => exact absurd hp (startBody_no_code b)
  | _ => rfl

theorem filter_taken {c : Config} {l : List SortItem} {ns : Str} (h : ∀ x ∈ l, x.decl.ns = ns) :
    expected c l = if (c.binderForNamespaces ns).isSome then [] else l.filter fun b => !b.code.isEmpty := by
  unfold expected
  split
  · rename_i hs
    rw [List.filter_eq_nil_iff]
    intro x hx
    rw [h x hx]
    cases hc : c.binderForNamespaces ns with
    | none => simp [hc] at hs
    | some f => simp
  · rename_i hs
    apply List.filter_congr
    intro x hx
    rw [h x hx]
    cases hc : c.binderForNamespaces ns with
    | none => simp
    | some f => simp [hc] at hs

theorem write_decls {c : Config} {o : Opts} {bs : List SortItem} {s s' : GenState} {b : SortItem} {F : OutFile} {k : Nat}
    (hw : WriteSpec c o bs s s' b F k) : declsOf F = expected c ((bs.drop s.i).take k) := by
  unfold declsOf
  rw [hw.body, List.filterMap_append, decls_startBody, filter_taken hw.taken]
  split
  · simp
  · simp [decls_emit]

theorem gen_decls {c : Config} {o : Opts} {bs : List SortItem} (hn : bs.length + 1 < 2 ^ 32) {files : List OutFile}
    (hr : Loop.Returns (genStep c o bs) GenState.init files) : files.flatMap declsOf = expected c bs := by
  obtain ⟨s, h1, h2, h3⟩ := gen_induct hn (fun s => s.files.flatMap declsOf = expected c (bs.take s.i)) (by rfl)
    (by
      intro s b hP hb hc
      show s.files.flatMap declsOf = expected c (bs.take (s.i + 1))
      rw [hP, take_skip hb]
      simp [expected, hc])
    (by
      intro s s' b F k hP hb hc hw
      show s'.files.flatMap declsOf = expected c (bs.take s'.i)
      rw [hw.files, take_written hw.le hw.i, List.flatMap_append, hP]
      simp [write_decls hw, expected, List.filter_append])
    hr
  rw [← h3, h1, List.take_of_length_le h2]

/-! ## Termination -/

def genMeasure (bs : List SortItem) (s : GenState) : Nat :=
  2 * (bs.length + 1 - s.i) + (match bs[s.i]? with | some b => if s.entrance b.decl.ns = 0 then 1 else 0 | none => 0)

theorem gen_terminates {c : Config} {o : Opts} {bs : List SortItem} (hn : bs.length + 1 < 2 ^ 32) (hmax : 1 ≤ o.maxLen) :
    ∃ files, Loop.run (genStep c o bs) (2 * bs.length + 4) GenState.init = some files := by
  have key := Loop.run_of_measure (step := genStep c o bs) (genMeasure bs) (fun _ => True) ?_ (s := GenState.init) trivial
  · obtain ⟨r, hr⟩ := key
    refine ⟨r, Loop.run_mono hr ?_⟩
    unfold genMeasure GenState.init
    simp only
    split <;> (try split) <;> omega
  · intro s s' _ hs
    refine ⟨trivial, ?_⟩
    cases hb : bs[s.i]? with
    | none => rw [genStep_end hb] at hs; cases hs
    | some b =>
      have hlt : s.i < bs.length := by rw [List.getElem?_eq_some_iff] at hb; exact hb.1
      have hm1 : ∀ (x : GenState), (match bs[x.i]? with | some b => if x.entrance b.decl.ns = 0 then 1 else 0 | none => 0) ≤ 1 := by
        intro x; split <;> (try split) <;> omega
      by_cases hc : b.code = []
      · rw [genStep_skip hb hc] at hs
        injection hs with hs
        subst hs
        rw [uintInc_of_lt (by omega)]
        have h1 := hm1 { s with i := s.i + 1 }
        unfold genMeasure
        simp only at h1 ⊢
        omega
      · obtain ⟨F, k, hw⟩ := genStep_write hn hb hc hs
        cases k with
        | zero =>
          have hst := hw.stuck rfl
          have hent : s.entrance b.decl.ns = 0 := by
            apply Classical.byContradiction
            intro hne
            have : (s.entrance b.decl.ns == 0) = false := by simpa using hne
            rw [this, startBody_not_first] at hst
            simp [codeText] at hst
            omega
          have hi : s'.i = s.i := by
            rcases hw.i with h | ⟨h, _⟩
            · simpa using h
            · omega
          unfold genMeasure
          rw [hi, hb, hw.entrance]
          simp [bump, hent]
        | succ k =>
          have h1 := hm1 s'
          have h2 := hw.i
          have h3 := hw.le
          unfold genMeasure
          omega

theorem gen_diverges {c : Config} {o : Opts} {bs : List SortItem} (hn : bs.length + 1 < 2 ^ 32) (hmax : o.maxLen = 0)
    (hb : ∃ b ∈ bs, b.code ≠ []) : Loop.Diverges (genStep c o bs) GenState.init := by
  obtain ⟨b, hb, hc⟩ := hb
  obtain ⟨j, hj⟩ := List.mem_iff_getElem?.1 hb
  refine Loop.diverges_of_invariant (fun s => s.i ≤ j) ?_ (Nat.zero_le _)
  intro s hs
  have hjl : j < bs.length := by rw [List.getElem?_eq_some_iff] at hj; exact hj.1
  obtain ⟨x, hx⟩ : ∃ x, bs[s.i]? = some x := ⟨bs[s.i]'(by omega), by rw [List.getElem?_eq_getElem]⟩
  by_cases hcx : x.code = []
  · refine ⟨_, genStep_skip hx hcx, ?_⟩
    have hne : s.i ≠ j := by
      intro he; rw [he, hj] at hx; injection hx with hx; subst hx; exact hc hcx
    simp only
    rw [uintInc_of_lt (by omega)]
    omega
  · have hce : x.code.isEmpty = false := by simpa using hcx
    cases hst : genStep c o bs s with
    | inr r => rw [genStep, hx] at hst; simp [hce] at hst
    | inl s' =>
      obtain ⟨F, k, hw⟩ := genStep_write hn hx hcx hst
      refine ⟨s', rfl, ?_⟩
      have hk : k = 0 := by
        cases k with
        | zero => rfl
        | succ k =>
          have h3 := hw.le
          have hne : (bs.drop s.i).take (k + 1) ≠ [] := by
            intro h
            have := congrArg List.length h
            simp at this; omega
          have := hw.size _ _ (List.dropLast_concat_getLast hne).symm
          omega
      subst hk
      rcases hw.i with h | ⟨h, _⟩ <;> omega

/-! ## Namespaces entered -/

/-- Bookkeeping of `namespace_entrance`. -/
structure EntInv (bs : List SortItem) (s : GenState) : Prop where
  count : ∀ N, s.entrance N = s.files.countP fun f => f.ns = N
  seen : ∀ x ∈ bs.take s.i, x.code ≠ [] → 0 < s.entrance x.decl.ns
  bound : ∀ N, 0 < s.entrance N → ∃ x ∈ bs, x.code ≠ [] ∧ x.decl.ns = N

theorem EntInv.init (bs : List SortItem) : EntInv bs GenState.init :=
  ⟨fun _ => rfl, fun x hx => by simp [GenState.init] at hx, fun N h => by simp [GenState.init] at h⟩

theorem EntInv.skip {bs : List SortItem} {s : GenState} {b : SortItem} (h : EntInv bs s) (hb : bs[s.i]? = some b)
    (hc : b.code = []) : EntInv bs { s with i := s.i + 1 } := by
  refine ⟨h.count, ?_, h.bound⟩
  intro x hx hxc
  simp only at hx
  rw [take_skip hb] at hx
  rcases List.mem_append.1 hx with hx | hx
  · exact h.seen x hx hxc
  · simp at hx; subst hx; exact absurd hc hxc

theorem EntInv.write {c : Config} {o : Opts} {bs : List SortItem} {s s' : GenState} {b : SortItem} {F : OutFile} {k : Nat}
    (h : EntInv bs s) (hb : bs[s.i]? = some b) (hc : b.code ≠ []) (hw : WriteSpec c o bs s s' b F k) : EntInv bs s' := by
  refine ⟨?_, ?_, ?_⟩
  · intro N
    rw [hw.files, hw.entrance, List.countP_append, ← h.count]
    simp only [bump, List.countP_singleton, hw.ns, decide_eq_true_eq]
    by_cases hN : N = b.decl.ns
    · subst hN; simp
    · rw [if_neg hN, if_neg (fun h => hN h.symm)]
      rfl
  · intro x hx hxc
    rw [take_written hw.le hw.i] at hx
    rw [hw.entrance]
    unfold bump
    rcases List.mem_append.1 hx with hx | hx
    · have := h.seen x hx hxc
      split <;> omega
    · rw [if_pos (hw.taken x hx)]; omega
  · intro N hN
    rw [hw.entrance] at hN
    unfold bump at hN
    split at hN
    · rename_i he
      exact ⟨b, List.mem_of_getElem? hb, hc, he.symm⟩
    · exact h.bound N hN

theorem piecesFor_append (a b : List OutFile) (N : Str) : piecesFor (a ++ b) N = piecesFor a N ++ piecesFor b N := by
  simp [piecesFor]

theorem piecesFor_single (F : OutFile) (N : Str) : piecesFor [F] N = if F.ns = N then F.body else [] := by
  unfold piecesFor
  by_cases h : F.ns = N <;> simp [h]

theorem count_zero {files : List OutFile} {N : Str} (h : files.countP (fun f => f.ns = N) = 0) : piecesFor files N = [] := by
  unfold piecesFor
  rw [List.countP_eq_zero] at h
  rw [List.filter_eq_nil_iff.2 (by intro a ha; exact h a ha)]; rfl

theorem gen_nsCall {c : Config} {o : Opts} {bs : List SortItem} (hn : bs.length + 1 < 2 ^ 32) {files : List OutFile}
    (hr : Loop.Returns (genStep c o bs) GenState.init files) {N f : Str} (hN : c.binderForNamespaces N = some f) :
    piecesFor files N = if ∃ x ∈ bs, x.code ≠ [] ∧ x.decl.ns = N then [.nsCall f N] else [] := by
  obtain ⟨s, ⟨h0, h1⟩, h2, h3⟩ := gen_induct hn
    (fun s => EntInv bs s ∧ piecesFor s.files N = if s.entrance N = 0 then [] else [.nsCall f N]) ⟨EntInv.init bs, rfl⟩
    (fun s b hP hb hc => ⟨hP.1.skip hb hc, hP.2⟩)
    (by
      intro s s' b F k hP hb hc hw
      refine ⟨hP.1.write hb hc hw, ?_⟩
      rw [hw.files, piecesFor_append, hP.2, piecesFor_single, hw.entrance, hw.ns]
      unfold bump
      by_cases hNb : b.decl.ns = N
      · subst hNb
        rw [hw.body, hN]
        by_cases he : s.entrance b.decl.ns = 0
        · simp [he, startBody_first_ns hN]
        · have : (s.entrance b.decl.ns == 0) = false := by simpa using he
          simp [this, he, startBody_not_first]
      · have hNb' : N ≠ b.decl.ns := fun h => hNb h.symm
        simp [hNb, hNb'])
    hr
  rw [← h3, h1]
  split
  · rename_i he
    rw [if_neg]
    rintro ⟨x, hx, hc, hns⟩
    have := h0.seen x (by rw [List.take_of_length_le h2]; exact hx) hc
    rw [hns] at this; omega
  · rename_i he
    rw [if_pos (h0.bound N (by omega))]

theorem emit_only (o : Opts) (t : Nat) (l : List SortItem) : ∀ p ∈ emit o t l, (∃ n id, p = .trace n id) ∨ ∃ b, p = .code b := by
  induction l generalizing t with
  | nil => simp [emit]
  | cons b bs ih =>
    intro p hp
    simp only [emit, entry, List.mem_append] at hp
    rcases hp with (hp | hp) | hp
    · split at hp
      · simp at hp; exact .inl ⟨_, _, hp⟩
      · simp at hp
    · split at hp
      · simp at hp; exact .inr ⟨_, hp⟩
      · simp at hp
    · exact ih _ p hp

theorem gen_addOn {c : Config} {o : Opts} {bs : List SortItem} (hn : bs.length + 1 < 2 ^ 32) {files : List OutFile}
    (hr : Loop.Returns (genStep c o bs) GenState.init files) {N f : Str} (hN : c.binderForNamespaces N = none)
    (hA : c.addOnBinderForNamespaces N = some f) :
    (∃ x ∈ bs, x.code ≠ [] ∧ x.decl.ns = N) →
      ∃ rest, piecesFor files N = .addOn f N :: rest ∧ ∀ p ∈ rest, (∃ n id, p = .trace n id) ∨ ∃ b, p = .code b := by
  obtain ⟨s, ⟨h0, h1⟩, h2, h3⟩ := gen_induct hn
    (fun s => EntInv bs s ∧ (0 < s.entrance N → ∃ rest, piecesFor s.files N = .addOn f N :: rest ∧
      ∀ p ∈ rest, (∃ n id, p = .trace n id) ∨ ∃ b, p = .code b)) ⟨EntInv.init bs, fun h => by simp [GenState.init] at h⟩
    (fun s b hP hb hc => ⟨hP.1.skip hb hc, hP.2⟩)
    (by
      intro s s' b F k hP hb hc hw
      refine ⟨hP.1.write hb hc hw, ?_⟩
      intro hpos
      rw [hw.files, piecesFor_append, piecesFor_single, hw.ns]
      rw [hw.entrance] at hpos
      unfold bump at hpos
      by_cases hNb : b.decl.ns = N
      · subst hNb
        have hbody := hw.body
        rw [hN] at hbody
        simp only [Option.isSome_none, Bool.false_eq_true, if_false] at hbody
        by_cases he : s.entrance b.decl.ns = 0
        · have h0 := hP.1.count b.decl.ns
          rw [he] at h0
          rw [count_zero h0.symm]
          simp only [he, beq_self_eq_true, startBody_first_addOn hN hA] at hbody
          refine ⟨_, by rw [if_pos rfl, hbody]; rfl, emit_only _ _ _⟩
        · obtain ⟨rest, hrest, hall⟩ := hP.2 (by omega)
          have : (s.entrance b.decl.ns == 0) = false := by simpa using he
          rw [this, startBody_not_first] at hbody
          refine ⟨rest ++ emit o s.traced ((bs.drop s.i).take k), by rw [hrest, if_pos rfl, hbody]; simp, ?_⟩
          intro p hp
          rcases List.mem_append.1 hp with hp | hp
          · exact hall p hp
          · exact emit_only _ _ _ p hp
      · rw [if_neg (fun h => hNb h.symm)] at hpos
        obtain ⟨rest, hrest, hall⟩ := hP.2 hpos
        exact ⟨rest, by simp [hrest, hNb], hall⟩)
    hr
  rintro ⟨x, hx, hc, hns⟩
  rw [← h3]
  refine h1 ?_
  rw [← hns]
  exact h0.seen x (by rw [List.take_of_length_le h2]; exact hx) hc

/-! ## Per-file facts -/

theorem gen_each {c : Config} {o : Opts} {bs : List SortItem} (hn : bs.length + 1 < 2 ^ 32) {files : List OutFile}
    (hr : Loop.Returns (genStep c o bs) GenState.init files) (Q : OutFile → Prop)
    (hQ : ∀ s s' b F k, bs[s.i]? = some b → b.code ≠ [] → WriteSpec c o bs s s' b F k → Q F) : ∀ F ∈ files, Q F := by
  obtain ⟨s, h1, _, h3⟩ := gen_induct hn (fun s => ∀ F ∈ s.files, Q F) (by simp [GenState.init])
    (fun s b hP _ _ => hP)
    (by
      intro s s' b F k hP hb hc hw G hG
      rw [hw.files] at hG
      rcases List.mem_append.1 hG with hG | hG
      · exact hP G hG
      · simp at hG; subst hG; exact hQ s s' b G k hb hc hw)
    hr
  rw [← h3]; exact h1

theorem entry_cases (o : Opts) (t : Nat) (b : SortItem) : entry o t b = [] ∨ OneEntry (entry o t b) := by
  unfold entry
  cases o.trace <;> simp only [Bool.false_eq_true, if_false, if_true, List.nil_append]
  · split
    · exact .inr (.inr (.inr (.inr (.inl ⟨b, rfl⟩))))
    · exact .inl rfl
  · split
    · exact .inr (.inr (.inr (.inr (.inr ⟨t, b, rfl⟩))))
    · exact .inr (.inr (.inr (.inl ⟨t, _, rfl⟩)))

theorem startBody_cases (c : Config) (ns : Str) (first : Bool) : startBody c ns first = [] ∨ OneEntry (startBody c ns first) := by
  cases first with
  | false => exact .inl (startBody_not_first c ns)
  | true =>
    cases h : c.binderForNamespaces ns with
    | some f => right; rw [startBody_first_ns h]; exact .inl ⟨f, ns, rfl⟩
    | none =>
      cases h' : c.addOnBinderForNamespaces ns with
      | some f => right; rw [startBody_first_addOn h h']; exact .inr (.inl ⟨f, ns, rfl⟩)
      | none => left; exact startBody_none h h'

theorem write_size {c : Config} {o : Opts} {bs : List SortItem} {s s' : GenState} {b : SortItem} {F : OutFile} {k : Nat}
    (hmax : 1 ≤ o.maxLen) (hw : WriteSpec c o bs s s' b F k) (hne : F.body ≠ []) :
    ∃ u g, F.body = u ++ g ∧ OneEntry g ∧ (codeText u).length < o.maxLen := by
  -- shrink the list of declarations from the right until its last one adds something
  have key : ∀ (n : Nat) (l : List SortItem), l.length = n →
      (∀ u x, l = u ++ [x] → (codeText (startBody c b.decl.ns (s.entrance b.decl.ns == 0) ++ emit o s.traced u)).length < o.maxLen) →
      startBody c b.decl.ns (s.entrance b.decl.ns == 0) ++ emit o s.traced l ≠ [] →
      ∃ u g, startBody c b.decl.ns (s.entrance b.decl.ns == 0) ++ emit o s.traced l = u ++ g ∧ OneEntry g ∧
        (codeText u).length < o.maxLen := by
    intro n
    induction n with
    | zero =>
      intro l hl hsz hne
      have : l = [] := List.length_eq_zero_iff.1 hl
      subst this
      simp only [emit, List.append_nil] at hne ⊢
      rcases startBody_cases c b.decl.ns (s.entrance b.decl.ns == 0) with h | h
      · exact absurd h hne
      · exact ⟨[], _, rfl, h, by simp [codeText]; omega⟩
    | succ n ih =>
      intro l hl hsz hne
      rcases List.eq_nil_or_concat l with rfl | ⟨u, x, rfl⟩
      · simp at hl
      · rw [List.concat_eq_append] at *
        rw [emit_append] at hne ⊢
        simp only [emit, List.append_nil] at hne ⊢
        rcases entry_cases o (if o.trace then s.traced + u.length else s.traced) x with he | he
        · rw [he, List.append_nil] at hne ⊢
          refine ih u (by simpa using hl) ?_ hne
          intro v y hv
          have := hsz u x rfl
          refine Nat.lt_of_le_of_lt ?_ this
          rw [hv, emit_append]
          simp [codeText]
        · exact ⟨_, _, (List.append_assoc _ _ _).symm, he, hsz u x rfl⟩
  cases hsk : (c.binderForNamespaces b.decl.ns).isSome with
  | true =>
    have hb := hw.body
    rw [hsk, if_pos rfl, List.append_nil] at hb
    rw [hb] at hne ⊢
    rcases startBody_cases c b.decl.ns (s.entrance b.decl.ns == 0) with h | h
    · exact absurd h hne
    · exact ⟨[], _, rfl, h, by simp [codeText]; omega⟩
  | false =>
    have hb := hw.body
    simp only [hsk, Bool.false_eq_true, if_false] at hb
    rw [hb] at hne ⊢
    refine key _ _ rfl ?_ hne
    intro u x hu
    have := hw.size u x hu
    simpa [hsk] using this

/-! ## Trace statements -/

theorem traces_emit (o : Opts) (t : Nat) (l : List SortItem) :
    (emit o t l).filterMap traceOf = if o.trace then List.range' t l.length else [] := by
  induction l generalizing t with
  | nil => simp [emit]
  | cons b bs ih =>
    simp only [emit, List.filterMap_append, ih, entry]
    have h2 : (if b.code.length != 0 then [Piece.code b] else []).filterMap traceOf = [] := by split <;> simp [traceOf]
    rw [h2]
    cases o.trace <;> simp [traceOf, List.range'_succ]

theorem traces_startBody (c : Config) (ns : Str) (first : Bool) : (startBody c ns first).filterMap traceOf = [] := by
  rw [List.filterMap_eq_nil_iff]
  intro p hp
  cases p with
  | trace n id => exact absurd hp (startBody_no_trace n id)
  | _ => rfl

theorem gen_traces {c : Config} {o : Opts} {bs : List SortItem} (hn : bs.length + 1 < 2 ^ 32) {files : List OutFile}
    (hr : Loop.Returns (genStep c o bs) GenState.init files) :
    ∃ t, (files.flatMap (·.body)).filterMap traceOf = List.range t := by
  obtain ⟨s, h1, _, h3⟩ := gen_induct hn (fun s => (s.files.flatMap (·.body)).filterMap traceOf = List.range s.traced) (by rfl)
    (fun s b hP _ _ => hP)
    (by
      intro s s' b F k hP hb hc hw
      show (s'.files.flatMap (·.body)).filterMap traceOf = List.range s'.traced
      rw [hw.files, List.flatMap_append, List.filterMap_append, hP, hw.traced]
      simp only [List.flatMap_cons, List.flatMap_nil, List.append_nil, hw.body, List.filterMap_append, traces_startBody, List.nil_append]
      split
      · simp
      · rw [traces_emit]
        have hlen : ((bs.drop s.i).take k).length = k := by have := hw.le; simp; omega
        rw [hlen]
        cases o.trace <;> simp
        rw [List.range_eq_range', List.range_eq_range', ← List.range'_append_1]; simp)
    hr
  exact ⟨s.traced, by rw [← h3]; exact h1⟩

/-! ## Decimal numbers -/

theorem natStr_injective {a b : Nat} (h : natStr a = natStr b) : a = b := by
  have h1 := @Nat.ofDigitChars_ten_toDigits a
  have h2 := @Nat.ofDigitChars_ten_toDigits b
  unfold natStr at h
  rw [← h1, ← h2, h]

theorem natStr_digit {n : Nat} {x : Char} (h : x ∈ natStr n) : x.isDigit = true :=
  Nat.isDigit_of_mem_toDigits (by decide) (by decide) h

theorem natStr_ne_nil (n : Nat) : natStr n ≠ [] := Nat.toDigits_ne_nil

/-- Reading off a number followed by a non-digit. -/
theorem natStr_append_inj {a b : Nat} {x y : Char} {u v : Str} (hx : x.isDigit = false) (hy : y.isDigit = false)
    (h : natStr a ++ x :: u = natStr b ++ y :: v) : a = b ∧ u = v := by
  have ha : ∀ z ∈ natStr a, z.isDigit = true := fun _ => natStr_digit
  have hb : ∀ z ∈ natStr b, z.isDigit = true := fun _ => natStr_digit
  have key : ∀ (p q : Str), (∀ z ∈ p, z.isDigit = true) → (∀ z ∈ q, z.isDigit = true) → p ++ x :: u = q ++ y :: v →
      p = q ∧ u = v := by
    intro p
    induction p with
    | nil =>
      intro q _ hq h
      cases q with
      | nil => simp at h; exact ⟨rfl, h.2⟩
      | cons z zs =>
        simp at h
        have := hq z (by simp)
        rw [← h.1, hx] at this; cases this
    | cons w ws ih =>
      intro q hp hq h
      cases q with
      | nil =>
        simp at h
        have := hp w (by simp)
        rw [h.1, hy] at this; cases this
      | cons z zs =>
        simp at h
        obtain ⟨h1, h2⟩ := ih zs (fun z hz => hp z (by simp [hz])) (fun z hz => hq z (by simp [hz])) h.2
        exact ⟨by rw [h.1, h1], h2⟩
  obtain ⟨h1, h2⟩ := key _ _ ha hb h
  exact ⟨natStr_injective h1, h2⟩

theorem trace_text_inj {n m : Nat} {id id' : Str} (h : Piece.text (.trace n id) = Piece.text (.trace m id')) : n = m := by
  simp only [Piece.text, List.append_assoc] at h
  have h := List.append_cancel_left h
  exact (natStr_append_inj (x := '_') (y := '_') (by decide) (by decide) h).1

theorem nodup_traceTexts {ps : List Piece} (h : (ps.filterMap traceOf).Nodup) : (ps.filterMap traceText).Nodup := by
  induction ps with
  | nil => simp
  | cons p ps ih =>
    cases p with
    | trace n id =>
      simp only [List.filterMap_cons, traceOf, traceText] at h ⊢
      rw [List.nodup_cons] at h ⊢
      refine ⟨?_, ih h.2⟩
      intro hm
      obtain ⟨q, hq, hqt⟩ := List.mem_filterMap.1 hm
      cases q with
      | trace m id' =>
        simp only [traceText, Option.some.injEq] at hqt
        have := trace_text_inj hqt
        subst this
        exact h.1 (List.mem_filterMap.2 ⟨_, hq, rfl⟩)
      | _ => simp [traceText] at hqt
    | _ => simpa [List.filterMap_cons, traceOf, traceText] using ih (by simpa [List.filterMap_cons, traceOf] using h)

/-! ## File names -/

/-- The keys and counters behind the file names. -/
theorem gen_keys {c : Config} {o : Opts} {bs : List SortItem} (hn : bs.length + 1 < 2 ^ 32) {files : List OutFile}
    (hr : Loop.Returns (genStep c o bs) GenState.init files) :
    ∃ keys : List (Str × Nat), keys.Nodup ∧
      (∀ p ∈ keys, ∃ b ∈ bs, b.code ≠ [] ∧ p.1 = fileKey o b) ∧
      files.map (fun F => (F.name, F.fn)) =
        keys.map fun p => (fileStem o p.1 p.2 ++ c!".cpp", functionName (fileStem o p.1 p.2)) := by
  obtain ⟨s, ⟨keys, h1, h2, _, h4⟩, _, h3⟩ := gen_induct hn (fun s => ∃ keys : List (Str × Nat), keys.Nodup ∧
      (∀ p ∈ keys, ∃ b ∈ bs, b.code ≠ [] ∧ p.1 = fileKey o b) ∧ (∀ p ∈ keys, p.2 < s.fileNames p.1) ∧
      s.files.map (fun F => (F.name, F.fn)) =
        keys.map fun p => (fileStem o p.1 p.2 ++ c!".cpp", functionName (fileStem o p.1 p.2)))
    ⟨[], by simp [GenState.init]⟩
    (fun s b hP _ _ => hP)
    (by
      rintro s s' b F k ⟨keys, h1, h2, h3, h4⟩ hb hc hw
      refine ⟨keys ++ [(fileKey o b, s.fileNames (fileKey o b))], ?_, ?_, ?_, ?_⟩
      · rw [List.nodup_append]
        refine ⟨h1, by simp, ?_⟩
        intro p hp q hq
        simp at hq
        rintro rfl
        have := h3 p hp
        rw [hq] at this
        simp at this
      · intro p hp
        rcases List.mem_append.1 hp with hp | hp
        · exact h2 p hp
        · simp at hp; exact ⟨b, List.mem_of_getElem? hb, hc, by rw [hp]⟩
      · intro p hp
        rw [hw.fileNames]
        unfold bump
        rcases List.mem_append.1 hp with hp | hp
        · have := h3 p hp
          split <;> omega
        · simp at hp; rw [hp]; simp
      · rw [hw.files, List.map_append, List.map_append, h4]
        simp [hw.name, hw.fn])
    hr
  exact ⟨keys, h1, h2, by rw [← h3]; exact h4⟩

end Binder
