import Verif.Lemmas.Registry

namespace Binder

open Spec

theorem Bound.eligible {ds : List Decl} {d : Decl} (h : Bound ds d) : Eligible d := by
  cases h <;> assumption

theorem Bound.mem {ds : List Decl} {d : Decl} (h : Bound ds d) : d ∈ ds := by
  cases h with
  | asked h _ _ _ => exact h
  | mentioned _ _ h _ => obtain ⟨b, a, e, _⟩ := h; rw [e]; simp

structure BInv (r : Registry) (st : BindState) : Prop where
  skip : ∀ i d, r.binders[i]? = some d → st.skipping i = (d.canBind && d.skipAsked)
  seed : ∀ i d, r.binders[i]? = some d → Eligible d → d.bindAsked = true → d.inSystem = false → st.requested i = true
  req : ∀ i d, r.binders[i]? = some d → st.requested i = true → d.builtin = false → Bound r.binders d
  code : ∀ i, st.code i ≠ [] → ∃ d, r.binders[i]? = some d ∧ st.code i = d.genCode ∧ st.requested i = true ∧ d.builtin = false
  closed : ∀ i d, r.binders[i]? = some d → st.code i ≠ [] → ∀ t ∈ d.requests, ∀ j e, r.types t = some j →
    r.binders[j]? = some e → Eligible e → st.requested j = true
  logNodup : st.log.Nodup
  log : ∀ i, i ∈ st.log ↔ st.code i ≠ []

theorem askConfig_other (ds : List Decl) (st : BindState) (i j : Nat) (h : j ≠ i) :
    (askConfig ds st i).skipping j = st.skipping j ∧ (askConfig ds st i).requested j = st.requested j := by
  unfold askConfig requestBindingsAndSkipping
  repeat' split
  all_goals simp [h]

theorem askConfig_code (ds : List Decl) (st : BindState) (i : Nat) :
    (askConfig ds st i).code = st.code ∧ (askConfig ds st i).log = st.log := by
  unfold askConfig requestBindingsAndSkipping
  repeat' split
  all_goals simp

theorem askConfig_self (ds : List Decl) (st : BindState) (i : Nat) (d : Decl) (h : ds[i]? = some d)
    (h1 : st.skipping i = false) (h2 : st.requested i = false) :
    (askConfig ds st i).skipping i = (d.canBind && d.skipAsked) ∧
    (askConfig ds st i).requested i = (d.canBind && !d.skipAsked && d.bindAsked && !d.inSystem) := by
  unfold askConfig requestBindingsAndSkipping bindable
  simp only [h]
  cases d.record.isSome <;> cases hb : d.canBind <;> cases hs : d.skipAsked <;> cases ha : d.bindAsked <;> cases hi : d.inSystem <;>
    simp [h1, h2]

theorem askConfig_fold (ds : List Decl) (k : Nat) (hk : k ≤ ds.length) :
    let st := (List.range k).foldl (askConfig ds) BindState.init
    st.code = (fun _ => []) ∧ st.log = [] ∧
    (∀ i, k ≤ i → st.skipping i = false ∧ st.requested i = false) ∧
    (∀ i d, i < k → ds[i]? = some d → st.skipping i = (d.canBind && d.skipAsked) ∧
      st.requested i = (d.canBind && !d.skipAsked && d.bindAsked && !d.inSystem)) := by
  induction k with
  | zero => simp [BindState.init]
  | succ k ih =>
    obtain ⟨h1, h2, h3, h4⟩ := ih (by omega)
    simp only [List.range_succ, List.foldl_append, List.foldl_cons, List.foldl_nil]
    generalize hst : (List.range k).foldl (askConfig ds) BindState.init = st at h1 h2 h3 h4
    obtain ⟨c1, c2⟩ := askConfig_code ds st k
    refine ⟨by rw [c1, h1], by rw [c2, h2], ?_, ?_⟩
    · intro i hi
      obtain ⟨o1, o2⟩ := askConfig_other ds st k i (by omega)
      rw [o1, o2]; exact h3 i (by omega)
    · intro i d hi hd
      by_cases hik : i = k
      · subst hik
        obtain ⟨e1, e2⟩ := h3 i (Nat.le_refl _)
        exact askConfig_self ds st i d hd e1 e2
      · obtain ⟨o1, o2⟩ := askConfig_other ds st k i hik
        rw [o1, o2]; exact h4 i d (by omega) hd

theorem BInv.start (r : Registry) : BInv r (bindStart r) := by
  obtain ⟨h1, h2, _, h4⟩ := askConfig_fold r.binders r.binders.length (Nat.le_refl _)
  change (bindStart r).code = _ at h1
  change (bindStart r).log = _ at h2
  have h4 : ∀ i d, r.binders[i]? = some d → (bindStart r).skipping i = (d.canBind && d.skipAsked) ∧
      (bindStart r).requested i = (d.canBind && !d.skipAsked && d.bindAsked && !d.inSystem) :=
    fun i d hd => h4 i d (List.getElem?_eq_some_iff.1 hd).1 hd
  refine ⟨fun i d hd => (h4 i d hd).1, ?_, ?_, ?_, ?_, ?_, ?_⟩
  · intro i d hd he hb hs
    rw [(h4 i d hd).2, he.1, he.2.1, hb, hs]; rfl
  · intro i d hd hr hbu
    rw [(h4 i d hd).2] at hr
    simp only [Bool.and_eq_true, Bool.not_eq_true'] at hr
    exact Bound.asked (List.mem_of_getElem? hd) ⟨hr.1.1.1, hr.1.1.2, hbu⟩ hr.1.2 hr.2
  · intro i hi; rw [h1] at hi; exact absurd rfl hi
  · intro i d _ hi; rw [h1] at hi; exact absurd rfl hi
  · rw [h2]; exact List.nodup_nil
  · intro i; rw [h1, h2]; simp

/-- Effect of a sequence of type requests. -/
theorem requests_fold (r : Registry) (ts : List Str) (st : BindState) :
    let st' := ts.foldl (requestBindings r) st
    st'.code = st.code ∧ st'.skipping = st.skipping ∧ st'.log = st.log ∧
    (∀ j, st.requested j = true → st'.requested j = true) ∧
    (∀ j, st'.requested j = true → st.requested j = true ∨ ∃ t ∈ ts, ∃ e, r.types t = some j ∧ r.binders[j]? = some e ∧
      isBinded st j e = false ∧ bindable st j e = true ∧ st.skipping j = false ∧ e.builtin = false) ∧
    (∀ t ∈ ts, ∀ j e, r.types t = some j → r.binders[j]? = some e → isBinded st j e = false → bindable st j e = true →
      st.skipping j = false → e.builtin = false → st'.requested j = true) := by
  induction ts generalizing st with
  | nil =>
    exact ⟨rfl, rfl, rfl, fun _ h => h, fun _ h => Or.inl h, fun _ h => absurd h (by simp)⟩
  | cons t ts ih =>
    have step : (requestBindings r st t).code = st.code ∧ (requestBindings r st t).skipping = st.skipping ∧
        (requestBindings r st t).log = st.log ∧ (∀ j, st.requested j = true → (requestBindings r st t).requested j = true) ∧
        (∀ j, (requestBindings r st t).requested j = true → st.requested j = true ∨ ∃ e, r.types t = some j ∧ r.binders[j]? = some e ∧
          isBinded st j e = false ∧ bindable st j e = true ∧ st.skipping j = false ∧ e.builtin = false) ∧
        (∀ j e, r.types t = some j → r.binders[j]? = some e → isBinded st j e = false → bindable st j e = true →
          st.skipping j = false → e.builtin = false → (requestBindings r st t).requested j = true) := by
      unfold requestBindings
      cases ht : r.types t with
      | none => exact ⟨rfl, rfl, rfl, fun _ h => h, fun _ h => Or.inl h, by simp⟩
      | some j =>
        simp only
        cases hb : r.binders[j]? with
        | none =>
          refine ⟨rfl, rfl, rfl, fun _ h => h, fun _ h => Or.inl h, ?_⟩
          intro j' e hj he; cases hj; rw [hb] at he; cases he
        | some d =>
          simp only
          split
          · rename_i hc
            simp only [Bool.and_eq_true, Bool.not_eq_true'] at hc
            refine ⟨rfl, rfl, rfl, fun k hk => ?_, fun k hk => ?_, fun k e hk _ _ _ _ _ => ?_⟩
            · simp only; split
              · rfl
              · exact hk
            · simp only at hk
              split at hk
              · rename_i hkj; subst hkj
                exact Or.inr ⟨d, rfl, hb, hc.1.1.1, hc.1.1.2, hc.1.2, hc.2⟩
              · exact Or.inl hk
            · cases hk; simp
          · rename_i hc
            refine ⟨rfl, rfl, rfl, fun _ h => h, fun _ h => Or.inl h, ?_⟩
            intro k e hk he h1 h2 h3 h4
            cases hk; rw [hb] at he; cases he
            exact absurd (by simp [h1, h2, h3, h4]) hc
    obtain ⟨s1, s2, s3, s4, s5, s6⟩ := step
    obtain ⟨i1, i2, i3, i4, i5, i6⟩ := ih (requestBindings r st t)
    have eb : ∀ j e, isBinded (requestBindings r st t) j e = isBinded st j e := by intro j e; unfold isBinded; rw [s1]
    have ec : ∀ j e, bindable (requestBindings r st t) j e = bindable st j e := by intro j e; unfold bindable; rw [s2]
    simp only [List.foldl_cons]
    refine ⟨i1.trans s1, i2.trans s2, i3.trans s3, fun j h => i4 j (s4 j h), ?_, ?_⟩
    · intro j hj
      rcases i5 j hj with h | ⟨t', ht', e, h1, h2, h3, h4, h5, h6⟩
      · rcases s5 j h with h | ⟨e, he⟩
        · exact Or.inl h
        · exact Or.inr ⟨t, by simp, e, he⟩
      · rw [eb] at h3; rw [ec] at h4; rw [s2] at h5
        exact Or.inr ⟨t', List.mem_cons_of_mem _ ht', e, h1, h2, h3, h4, h5, h6⟩
    · intro t' ht' j e h1 h2 h3 h4 h5 h6
      rcases List.mem_cons.1 ht' with rfl | ht'
      · exact i4 j (s6 j e h1 h2 h3 h4 h5 h6)
      · exact i6 t' ht' j e h1 h2 (by rw [eb]; exact h3) (by rw [ec]; exact h4) (by rw [s2]; exact h5) h6

theorem eligible_of_flags {r : Registry} {st : BindState} (h : BInv r st) {j : Nat} {e : Decl} (he : r.binders[j]? = some e)
    (h1 : bindable st j e = true) (h2 : st.skipping j = false) (h3 : e.builtin = false) : Eligible e := by
  have hs := h.skip j e he
  have hc : e.canBind = true := by
    unfold bindable at h1
    split at h1
    · simp only [Bool.and_eq_true] at h1; exact h1.1
    · exact h1
  rw [h2, hc] at hs
  refine ⟨hc, ?_, h3⟩
  cases hk : e.skipAsked
  · rfl
  · rw [hk] at hs; simp at hs

theorem flags_of_eligible {r : Registry} {st : BindState} (h : BInv r st) {j : Nat} {e : Decl} (he : r.binders[j]? = some e)
    (hel : Eligible e) : bindable st j e = true ∧ st.skipping j = false := by
  have hs := h.skip j e he
  rw [hel.1, hel.2.1] at hs
  simp only [Bool.and_false] at hs
  refine ⟨?_, hs⟩
  unfold bindable
  split <;> simp [hel.1, hs]

theorem BInv.bindOne {r : Registry} (hr : RegInv r) {st : BindState} (h : BInv r st) {i : Nat} {d : Decl}
    (hd : r.binders[i]? = some d) (hg : d.genCode ≠ []) (hnb : isBinded st i d = false) (hreq : st.requested i = true) :
    BInv r (bindOne r st i d) ∧ (bindOne r st i d).code i ≠ [] ∧ ∀ j, st.code j ≠ [] → (bindOne r st i d).code j ≠ [] := by
  unfold isBinded at hnb
  simp only [Bool.or_eq_false_iff, bne_eq_false_iff_eq] at hnb
  have hci : st.code i = [] := List.length_eq_zero_iff.1 hnb.1
  have hB : Bound r.binders d := h.req i d hd hreq hnb.2
  obtain ⟨f1, f2, f3, f4, f5, f6⟩ := requests_fold r d.requests { st with log := st.log ++ [i] }
  unfold Binder.bindOne
  simp only at f1 f2 f3 f4 f5 f6 ⊢
  generalize hst' : d.requests.foldl (requestBindings r) { st with log := st.log ++ [i] } = st' at f1 f2 f3 f4 f5 f6
  have hmono : ∀ j, st.code j ≠ [] → (if j = i then d.genCode else st'.code j) ≠ [] := by
    intro j hj
    split
    · exact hg
    · rw [f1]; exact hj
  refine ⟨⟨?_, ?_, ?_, ?_, ?_, ?_, ?_⟩, by simp [hg], hmono⟩
  · intro j e he; simp only; rw [f2]; exact h.skip j e he
  · intro j e he a b c; exact f4 j (h.seed j e he a b c)
  · intro j e he hj hbu
    rcases f5 j hj with hj | ⟨t, ht, e', h1, h2, h3, h4, h5, h6⟩
    · exact h.req j e he hj hbu
    · rw [he] at h2; cases h2
      obtain ⟨e'', h7, h8⟩ := hr.some_ t j h1
      rw [he] at h7; cases h7
      exact Bound.mentioned hB ht h8 (eligible_of_flags h he h4 h5 hbu)
  · intro j hj
    simp only at hj ⊢
    by_cases hji : j = i
    · subst hji
      exact ⟨d, hd, by simp, f4 j hreq, hnb.2⟩
    · rw [if_neg hji, f1] at hj
      obtain ⟨e, h1, h2, h3, h4⟩ := h.code j hj
      exact ⟨e, h1, by rw [if_neg hji, f1]; exact h2, f4 j h3, h4⟩
  · intro j e he hj t ht k e' hk he' hel
    simp only at hj ⊢
    by_cases hji : j = i
    · subst hji
      rw [hd] at he; cases he
      by_cases hck : st.code k = []
      · obtain ⟨b1, b2⟩ := flags_of_eligible h he' hel
        exact f6 t ht k e' hk he' (by simp [isBinded, hck, hel.2.2]) b1 b2 hel.2.2
      · obtain ⟨_, _, _, h3, _⟩ := h.code k hck
        exact f4 k h3
    · rw [if_neg hji, f1] at hj
      exact f4 k (h.closed j e he hj t ht k e' hk he' hel)
  · simp only; rw [f3]
    refine List.nodup_append.2 ⟨h.logNodup, by simp, ?_⟩
    intro a ha b hb
    simp only [List.mem_singleton] at hb
    subst hb
    rintro rfl
    exact (h.log a).1 ha hci
  · intro j
    simp only; rw [f3]
    simp only [List.mem_append, List.mem_singleton, h.log]
    by_cases hji : j = i
    · subst hji; simp [hg]
    · rw [if_neg hji, f1]; simp [hji]

/-- All declarations produce some text when bound. -/
def Productive (r : Registry) : Prop := ∀ d ∈ r.binders, d.builtin = false → d.genCode ≠ []

/-- One pass: the invariant is kept, code is never lost; if the flag stays down nothing changed and nothing is left to bind;
if the flag goes up some declaration got its code. -/
theorem pass_fold {r : Registry} (hr : RegInv r) (hp : Productive r) (is : List Nat) {st : BindState} (h : BInv r st) (f : Bool) :
    let s := is.foldl (passStep r) (st, f)
    BInv r s.1 ∧ (∀ j, st.code j ≠ [] → s.1.code j ≠ []) ∧ (f = true → s.2 = true) ∧
    (s.2 = false → s.1 = st ∧ ∀ i ∈ is, ∀ d, r.binders[i]? = some d →
      (!(isBinded st i d) && bindable st i d && st.requested i) = false) ∧
    (s.2 = true → f = true ∨ ∃ i ∈ is, st.code i = [] ∧ s.1.code i ≠ []) := by
  induction is generalizing st f with
  | nil => exact ⟨h, fun _ hj => hj, fun e => e, fun _ => ⟨rfl, by simp⟩, fun e => Or.inl e⟩
  | cons i is ih =>
    simp only [List.foldl_cons]
    have : (passStep r (st, f) i = (st, f) ∧ ∀ d, r.binders[i]? = some d → (!(isBinded st i d) && bindable st i d && st.requested i) = false) ∨
        (∃ st', passStep r (st, f) i = (st', true) ∧ BInv r st' ∧ st.code i = [] ∧ st'.code i ≠ [] ∧ ∀ j, st.code j ≠ [] → st'.code j ≠ []) := by
      unfold passStep
      cases hd : r.binders[i]? with
      | none => exact Or.inl ⟨rfl, by simp⟩
      | some d =>
        simp only
        split
        · rename_i hc
          right
          simp only [Bool.and_eq_true, Bool.not_eq_true'] at hc
          obtain ⟨a, b, c⟩ := h.bindOne hr hd (hp d (List.mem_of_getElem? hd) (by have := hc.1.1; unfold isBinded at this; exact (Bool.or_eq_false_iff.1 this).2)) hc.1.1 hc.2
          refine ⟨_, rfl, a, ?_, b, c⟩
          have := hc.1.1
          unfold isBinded at this
          simp only [Bool.or_eq_false_iff, bne_eq_false_iff_eq] at this
          exact List.length_eq_zero_iff.1 this.1
        · rename_i hc
          left
          refine ⟨rfl, ?_⟩
          intro d' hd'; cases hd'
          simpa using hc
    rcases this with ⟨e, hn⟩ | ⟨st', e, h', hci, hci', hm⟩
    · rw [e]
      obtain ⟨a, b, c, d, g⟩ := ih h f
      refine ⟨a, b, c, ?_, ?_⟩
      · intro hf
        obtain ⟨d1, d2⟩ := d hf
        refine ⟨d1, ?_⟩
        intro k hk
        rcases List.mem_cons.1 hk with rfl | hk
        · exact hn
        · exact d2 k hk
      · intro hf
        rcases g hf with g | ⟨k, hk, g⟩
        · exact Or.inl g
        · exact Or.inr ⟨k, List.mem_cons_of_mem _ hk, g⟩
    · rw [e]
      obtain ⟨a, b, c, d, g⟩ := ih h' true
      refine ⟨a, fun j hj => b j (hm j hj), fun _ => c rfl, ?_, ?_⟩
      · intro hf; rw [c rfl] at hf; cases hf
      · intro _; exact Or.inr ⟨i, by simp, hci, b i hci'⟩

/-- Number of declarations without code. -/
def unbound (r : Registry) (st : BindState) : Nat := (List.range r.binders.length).countP (fun i => st.code i == [])

theorem unbound_lt {r : Registry} {st st' : BindState} (hm : ∀ j, st.code j ≠ [] → st'.code j ≠ [])
    {i : Nat} (hi : i < r.binders.length) (h1 : st.code i = []) (h2 : st'.code i ≠ []) : unbound r st' < unbound r st := by
  unfold unbound
  have key : ∀ l : List Nat, i ∈ l → l.countP (fun i => st'.code i == []) < l.countP (fun i => st.code i == []) := by
    intro l
    have mono : ∀ l : List Nat, l.countP (fun i => st'.code i == []) ≤ l.countP (fun i => st.code i == []) := by
      intro l
      apply List.countP_mono_left
      intro x _ hx
      simp only [beq_iff_eq] at hx ⊢
      exact Classical.byContradiction fun hne => hm x hne hx
    induction l with
    | nil => intro h; simp at h
    | cons a l ih =>
      intro h
      by_cases ha : a = i
      · subst ha
        have := mono l
        rw [List.countP_cons, List.countP_cons, if_neg (by simpa using h2), if_pos (by simpa using h1)]
        omega
      · have := ih (by rcases List.mem_cons.1 h with h | h; exact absurd h.symm ha; exact h)
        rw [List.countP_cons, List.countP_cons]
        have hle : (if st'.code a == [] then 1 else 0) ≤ (if st.code a == [] then 1 else 0) := by
          by_cases hca : st.code a = []
          · simp [hca]; split <;> simp
          · simp [hca, hm a hca]
        omega
  exact key _ (by simpa using hi)

theorem bindStep_inl {r : Registry} (hr : RegInv r) (hp : Productive r) {st st' : BindState} (h : BInv r st)
    (hs : bindStep r st = .inl st') : BInv r st' ∧ unbound r st' < unbound r st := by
  obtain ⟨a, b, _, _, g⟩ := pass_fold hr hp (List.range r.binders.length) h false
  unfold bindStep at hs
  simp only at hs
  split at hs
  · rename_i hf
    cases hs
    refine ⟨a, ?_⟩
    rcases g hf with g | ⟨i, hi, h1, h2⟩
    · cases g
    · exact unbound_lt b (by simpa using hi) h1 h2
  · cases hs

theorem bindStep_inr {r : Registry} (hr : RegInv r) (hp : Productive r) {st st' : BindState} (h : BInv r st)
    (hs : bindStep r st = .inr st') :
    st' = st ∧ ∀ i d, r.binders[i]? = some d → (!(isBinded st i d) && bindable st i d && st.requested i) = false := by
  obtain ⟨_, _, _, d, _⟩ := pass_fold hr hp (List.range r.binders.length) h false
  unfold bindStep at hs
  simp only at hs
  split at hs
  · cases hs
  · rename_i hf
    cases hs
    obtain ⟨d1, d2⟩ := d (by simpa using hf)
    refine ⟨d1, ?_⟩
    intro i e he
    exact d2 i (by simpa using (List.getElem?_eq_some_iff.1 he).1) e he

/-- State of the binders when `Context::bind` returns. -/
structure BindDone (r : Registry) (st : BindState) : Prop where
  inv : BInv r st
  quiet : ∀ i d, r.binders[i]? = some d → (!(isBinded st i d) && bindable st i d && st.requested i) = false

theorem bindDone_of_returns {r : Registry} (hr : RegInv r) (hp : Productive r) {st : BindState}
    (h : Loop.Returns (bindStep r) (bindStart r) st) : BindDone r st := by
  refine Loop.returns_induct (BInv r) (BindDone r) ?_ ?_ (BInv.start r) h
  · intro s s' hs he; exact (bindStep_inl hr hp hs he).1
  · intro s r' hs he
    obtain ⟨e, q⟩ := bindStep_inr hr hp hs he
    subst e
    exact ⟨hs, q⟩

theorem BindDone.bound_iff {r : Registry} (hr : RegInv r) {st : BindState} (h : BindDone r st) {i : Nat} {d : Decl}
    (hd : r.binders[i]? = some d) : st.code i ≠ [] ↔ Bound r.binders d := by
  constructor
  · intro hc
    obtain ⟨e, h1, _, h3, h4⟩ := h.inv.code i hc
    rw [hd] at h1; cases h1
    exact h.inv.req i d hd h3 h4
  · intro hB
    have key : ∀ {i : Nat} {d : Decl}, r.binders[i]? = some d → Eligible d → st.requested i = true → st.code i ≠ [] := by
      intro i d hd hel hrq hc
      obtain ⟨b1, _⟩ := flags_of_eligible h.inv hd hel
      have := h.quiet i d hd
      simp [isBinded, hc, hel.2.2, b1, hrq] at this
    induction hB generalizing i with
    | asked hm hel hb hs => exact key hd hel (h.inv.seed i _ hd hel hb hs)
    | mentioned hB' ht hden hel ih =>
      obtain ⟨k, hk⟩ := List.mem_iff_getElem?.1 (Bound.mem hB')
      have := ih hk
      obtain ⟨j, hj1, hj2⟩ := denotes_types hr hden
      have hij := getElem?_inj_ident hr.nodup hd hj2
      subst hij
      exact key hd hel (h.inv.closed k _ hk this _ ht i _ hj1 hd hel)

theorem unbound_le (r : Registry) (st : BindState) : unbound r st ≤ r.binders.length := by
  unfold unbound
  exact Nat.le_trans List.countP_le_length (by simp)

theorem bind_terminates {r : Registry} (hr : RegInv r) (hp : Productive r) :
    ∃ st, Loop.run (bindStep r) (r.binders.length + 1) (bindStart r) = some st := by
  obtain ⟨st, h⟩ := Loop.run_of_measure (unbound r) (BInv r) (fun s s' hs he => bindStep_inl hr hp hs he) (BInv.start r)
  exact ⟨st, Loop.run_mono h (by have := unbound_le r (bindStart r); omega)⟩

end Binder
