import Verif.Lemmas.Run
import Verif.Lemmas.AllTwo

/-! Two runs whose objects differ only in text run in the same way. -/

namespace Binder

open Spec Cxx

/-- Objects that differ only in the text of their bindings and in include lines. -/
structure DeclSim (d d' : Decl) : Prop where
  ident : d.ident = d'.ident
  ns : d.ns = d'.ns
  typeName : d.typeName = d'.typeName
  record : d.record = d'.record
  canBind : d.canBind = d'.canBind
  builtin : d.builtin = d'.builtin
  inSystem : d.inSystem = d'.inSystem
  skipAsked : d.skipAsked = d'.skipAsked
  bindAsked : d.bindAsked = d'.bindAsked
  code : d.genCode = [] ↔ d'.genCode = []
  requests : d.requests = d'.requests
  deps : d.deps = d'.deps
  incl : d.incl = d'.incl

structure RegSim (r r' : Registry) : Prop where
  binders : All2 DeclSim r.binders r'.binders
  types : r.types = r'.types
  ids : r.ids = r'.ids

theorem register_sim {l l' : List Decl} (h : All2 DeclSim l l') : RegSim (register l) (register l') := by
  unfold register
  suffices ∀ r r', RegSim r r' → RegSim (l.foldl Registry.add r) (l'.foldl Registry.add r') from this _ _ ⟨.nil, rfl, rfl⟩
  induction h with
  | nil => exact fun _ _ h => h
  | cons hd _ ih =>
    intro r r' hr
    refine ih _ _ ?_
    rename_i d d' _ _
    unfold Registry.add
    rw [hr.ids, hd.ident]
    split
    · exact hr
    · refine ⟨All2.append hr.binders (.cons hd .nil), ?_, rfl⟩
      simp only
      rw [hd.typeName, hr.types, hr.binders.length]

theorem RegSim.get {r r' : Registry} (h : RegSim r r') (i : Nat) :
    (r.binders[i]? = none ∧ r'.binders[i]? = none) ∨ ∃ d d', r.binders[i]? = some d ∧ r'.binders[i]? = some d' ∧ DeclSim d d' :=
  h.binders.get i

structure StateSim (s s' : BindState) : Prop where
  requested : s.requested = s'.requested
  skipping : s.skipping = s'.skipping
  code : ∀ i, s.code i = [] ↔ s'.code i = []
  log : s.log = s'.log

theorem isBinded_sim {s s' : BindState} (h : StateSim s s') {d d' : Decl} (hd : DeclSim d d') (i : Nat) : isBinded s i d = isBinded s' i d' := by
  unfold isBinded
  rw [hd.builtin]
  have := h.code i
  cases h1 : s.code i <;> cases h2 : s'.code i <;> simp_all

theorem bindable_sim {s s' : BindState} (h : StateSim s s') {d d' : Decl} (hd : DeclSim d d') (i : Nat) : bindable s i d = bindable s' i d' := by
  unfold bindable
  rw [hd.record, hd.canBind, h.skipping]

theorem rbas_sim {s s' : BindState} (h : StateSim s s') {d d' : Decl} (hd : DeclSim d d') (i : Nat) (b : Bool) :
    StateSim (requestBindingsAndSkipping s i d b) (requestBindingsAndSkipping s' i d' b) := by
  unfold requestBindingsAndSkipping
  rw [hd.skipAsked, hd.bindAsked]
  split
  · exact ⟨h.requested, by simp only [h.skipping], h.code, h.log⟩
  · split
    · exact ⟨by simp only [h.requested], h.skipping, h.code, h.log⟩
    · exact h

theorem bindStart_sim {r r' : Registry} (h : RegSim r r') : StateSim (bindStart r) (bindStart r') := by
  unfold bindStart
  rw [← h.binders.length]
  suffices ∀ (l : List Nat) s s', StateSim s s' → StateSim (l.foldl (askConfig r.binders) s) (l.foldl (askConfig r'.binders) s') from
    this _ _ _ ⟨rfl, rfl, fun _ => Iff.rfl, rfl⟩
  intro l
  induction l with
  | nil => exact fun _ _ h => h
  | cons i l ih =>
    intro s s' hs
    refine ih _ _ ?_
    unfold askConfig
    rcases h.get i with ⟨h1, h2⟩ | ⟨d, d', h1, h2, hd⟩
    · rw [h1, h2]; exact hs
    · rw [h1, h2]
      simp only
      rw [bindable_sim hs hd, hd.inSystem]
      split
      · split
        · exact rbas_sim hs hd i _
        · exact rbas_sim hs hd i _
      · exact hs

theorem requestBindings_sim {r r' : Registry} (h : RegSim r r') {s s' : BindState} (hs : StateSim s s') (t : Str) :
    StateSim (requestBindings r s t) (requestBindings r' s' t) := by
  unfold requestBindings
  rw [h.types]
  cases r'.types t with
  | none => exact hs
  | some j =>
    simp only
    rcases h.get j with ⟨h1, h2⟩ | ⟨d, d', h1, h2, hd⟩
    · rw [h1, h2]; exact hs
    · rw [h1, h2]
      simp only
      rw [isBinded_sim hs hd, bindable_sim hs hd, hs.skipping, hd.builtin]
      split
      · exact ⟨by simp only [hs.requested], rfl, hs.code, hs.log⟩
      · exact hs

theorem bindOne_sim {r r' : Registry} (h : RegSim r r') {s s' : BindState} (hs : StateSim s s') {d d' : Decl} (hd : DeclSim d d') (i : Nat) :
    StateSim (bindOne r s i d) (bindOne r' s' i d') := by
  unfold bindOne
  rw [hd.requests]
  have h0 : StateSim { s with log := s.log ++ [i] } { s' with log := s'.log ++ [i] } := ⟨hs.requested, hs.skipping, hs.code, by simp only [hs.log]⟩
  have h1 : ∀ (l : List Str) s s', StateSim s s' → StateSim (l.foldl (requestBindings r) s) (l.foldl (requestBindings r') s') := by
    intro l
    induction l with
    | nil => exact fun _ _ h => h
    | cons t l ih => exact fun _ _ hs => ih _ _ (requestBindings_sim h hs t)
  have h2 := h1 d'.requests _ _ h0
  refine ⟨h2.requested, h2.skipping, ?_, h2.log⟩
  intro j
  simp only
  split
  · exact hd.code
  · exact h2.code j

theorem bindStep_sim {r r' : Registry} (h : RegSim r r') {s s' : BindState} (hs : StateSim s s') :
    (∃ t t', bindStep r s = .inl t ∧ bindStep r' s' = .inl t' ∧ StateSim t t') ∨ (∃ t t', bindStep r s = .inr t ∧ bindStep r' s' = .inr t' ∧ StateSim t t') := by
  have key : ∀ (l : List Nat) (p p' : BindState × Bool), StateSim p.1 p'.1 → p.2 = p'.2 →
      StateSim (l.foldl (passStep r) p).1 (l.foldl (passStep r') p').1 ∧ (l.foldl (passStep r) p).2 = (l.foldl (passStep r') p').2 := by
    intro l
    induction l with
    | nil => exact fun _ _ h1 h2 => ⟨h1, h2⟩
    | cons i l ih =>
      intro p p' h1 h2
      have hp : StateSim (passStep r p i).1 (passStep r' p' i).1 ∧ (passStep r p i).2 = (passStep r' p' i).2 := by
        unfold passStep
        rcases h.get i with ⟨e1, e2⟩ | ⟨d, d', e1, e2, hd⟩
        · rw [e1, e2]; exact ⟨h1, h2⟩
        · rw [e1, e2]
          simp only
          rw [isBinded_sim h1 hd, bindable_sim h1 hd, h1.requested]
          split
          · exact ⟨bindOne_sim h h1 hd i, rfl⟩
          · exact ⟨h1, h2⟩
      exact ih _ _ hp.1 hp.2
  obtain ⟨h1, h2⟩ := key (List.range r.binders.length) (s, false) (s', false) hs rfl
  unfold bindStep
  rw [← h.binders.length]
  simp only
  rw [← h2]
  split
  · exact .inl ⟨_, _, rfl, rfl, h1⟩
  · exact .inr ⟨_, _, rfl, rfl, h1⟩

theorem Loop.returns_sim {σ ρ σ' ρ' : Type} {step : σ → σ ⊕ ρ} {step' : σ' → σ' ⊕ ρ'} (R : σ → σ' → Prop) (Q : ρ → ρ' → Prop)
    (h : ∀ s s', R s s' → (∃ t t', step s = .inl t ∧ step' s' = .inl t' ∧ R t t') ∨ (∃ t t', step s = .inr t ∧ step' s' = .inr t' ∧ Q t t'))
    {s : σ} {s' : σ'} (hs : R s s') {x : ρ} (hx : Loop.Returns step s x) : ∃ x', Loop.Returns step' s' x' ∧ Q x x' := by
  obtain ⟨n, hn⟩ := hx
  induction n generalizing s s' with
  | zero => cases hn
  | succ n ih =>
    rw [Loop.run] at hn
    rcases h s s' hs with ⟨t, t', e, e', ht⟩ | ⟨t, t', e, e', ht⟩
    · rw [e] at hn
      obtain ⟨x', h1, h2⟩ := ih ht hn
      exact ⟨x', Loop.returns_of_inl e' h1, h2⟩
    · rw [e] at hn
      cases hn
      exact ⟨t', Loop.returns_of_inr e', ht⟩

structure ItemSim (b b' : SortItem) : Prop where
  decl : DeclSim b.decl b'.decl
  code : b.code = [] ↔ b'.code = []

theorem ItemSim.deps {b b' : SortItem} (h : ItemSim b b') : b.deps = b'.deps := by
  unfold SortItem.deps
  rw [h.decl.deps]
  have := h.code
  cases h1 : b.code <;> cases h2 : b'.code <;> simp_all

theorem sortInput_sim {r r' : Registry} (h : RegSim r r') {s s' : BindState} (hs : StateSim s s') :
    All2 ItemSim (sortInput r s) (sortInput r' s') := by
  unfold sortInput
  suffices ∀ l l', All2 DeclSim l l' → ∀ n, All2 ItemSim ((l.zipIdx n).map fun (d, i) => ⟨d, s.code i⟩)
      ((l'.zipIdx n).map fun (d, i) => ⟨d, s'.code i⟩) from this _ _ h.binders 0
  intro l l' hl
  induction hl with
  | nil => exact fun _ => .nil
  | cons hd _ ih => exact fun n => .cons ⟨hd, hs.code n⟩ (ih (n + 1))

theorem findIdx_sim {l l' : List SortItem} (h : All2 ItemSim l l') (c : Rec) :
    l.findIdx? (fun p => p.decl.record == some c) = l'.findIdx? (fun p => p.decl.record == some c) := by
  induction h with
  | nil => rfl
  | cons hd _ ih => rw [List.findIdx?_cons, List.findIdx?_cons, ih, hd.decl.record]

theorem processDeps_sim (binded : List Str) (cs : List Rec) {l l' : List SortItem} (h : All2 ItemSim l l') (rep : Bool) :
    (processDeps binded cs l rep = none ∧ processDeps binded cs l' rep = none) ∨
    ∃ x x' b, processDeps binded cs l rep = some (x, b) ∧ processDeps binded cs l' rep = some (x', b) ∧ All2 ItemSim x x' := by
  induction cs generalizing l l' rep with
  | nil => exact .inr ⟨l, l', rep, rfl, rfl, h⟩
  | cons c cs ih =>
    rw [processDeps, processDeps]
    split
    · exact ih h rep
    · rw [findIdx_sim h]
      cases l'.findIdx? (fun p => p.decl.record == some c) with
      | none =>
        simp only
        split
        · exact .inl ⟨rfl, rfl⟩
        · exact ih h rep
      | some e =>
        refine ih ?_ true
        unfold rotateFrom
        exact All2.append (h.drop e) (h.take e)

inductive PassSim : PassEnd → PassEnd → Prop where
  | exit : PassSim .exit .exit
  | again {l l'} : All2 ItemSim l l' → PassSim (.again l) (.again l')
  | done {l l'} : All2 ItemSim l l' → PassSim (.done l) (.done l')

theorem sortPass_sim {l l' : List SortItem} (h : All2 ItemSim l l') : ∀ {pre pre' : List SortItem} (binded : List Str),
    All2 ItemSim pre pre' → PassSim (sortPass pre binded l) (sortPass pre' binded l') := by
  induction h with
  | nil => exact fun _ h => .done h
  | cons hd hl ih =>
    intro pre pre' binded hp
    rename_i b b' bs bs'
    rw [sortPass, sortPass, hd.decl.record]
    have hp1 : All2 ItemSim (pre ++ [b]) (pre' ++ [b']) := All2.append hp (.cons hd .nil)
    cases b'.decl.record with
    | none => exact ih binded hp1
    | some C =>
      simp only
      rw [hd.deps]
      rcases processDeps_sim binded b'.deps (.cons hd hl) false with ⟨h1, h2⟩ | ⟨x, x', rep, h1, h2, h3⟩
      · rw [h1, h2]; exact .exit
      · rw [h1, h2]
        simp only
        split
        · exact .again (All2.append hp h3)
        · exact ih _ hp1

/-- The two runs return after the same steps. -/
theorem run_sim {l l' : List Decl} (h : All2 DeclSim l l') {st st' : BindState} {bs bs' : Option (List SortItem)}
    (h1 : Loop.Returns (bindStep (register l)) (bindStart (register l)) st) (h2 : Loop.Returns (bindStep (register l')) (bindStart (register l')) st')
    (h3 : Loop.Returns sortStep (sortInput (register l) st) bs) (h4 : Loop.Returns sortStep (sortInput (register l') st') bs') :
    (bs = none ∧ bs' = none) ∨ ∃ x x', bs = some x ∧ bs' = some x' ∧ All2 ItemSim x x' := by
  have hr := register_sim h
  obtain ⟨y, hy, hs⟩ := Loop.returns_sim StateSim StateSim (fun s s' hs => bindStep_sim hr hs) (bindStart_sim hr) h1
  cases hy.unique h2
  obtain ⟨z, hz, hq⟩ := Loop.returns_sim (step := sortStep) (step' := sortStep) (All2 ItemSim)
    (fun x x' => (x = none ∧ x' = none) ∨ ∃ y y', x = some y ∧ x' = some y' ∧ All2 ItemSim y y')
    (by
      intro s s' hs
      unfold sortStep
      have := sortPass_sim hs (pre := []) (pre' := []) [] .nil
      cases hp : sortPass [] [] s <;> cases hp' : sortPass [] [] s' <;> rw [hp, hp'] at this <;> cases this
      · exact .inr ⟨_, _, rfl, rfl, .inl ⟨rfl, rfl⟩⟩
      · rename_i h; exact .inl ⟨_, _, rfl, rfl, h⟩
      · rename_i h; exact .inr ⟨_, _, rfl, rfl, .inr ⟨_, _, rfl, rfl, h⟩⟩)
    (sortInput_sim hr hs) h3
  cases hz.unique h4
  exact hq

end Binder
