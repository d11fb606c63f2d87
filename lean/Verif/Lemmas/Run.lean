import Verif.Spec.Run
import Verif.Spec.Generate
import Verif.Props.Context
import Verif.Props.Generate
import Verif.Props.Function
import Verif.Props.ClassHead

/-!
# A whole run
-/

namespace Binder

open Spec Cxx

/-! ## From declarations to objects -/

theorem decl_ident (U : TransUnit) (v : Visit) : (U.decl v).ident = identOf U.E v := by cases v <;> rfl
theorem decl_ns (U : TransUnit) (v : Visit) : (U.decl v).ns = namespaceOf U.E v := by cases v <;> rfl
theorem decl_typeName (U : TransUnit) (v : Visit) : (U.decl v).typeName = typeNameOf U.E v := by cases v <;> rfl
theorem decl_requests (U : TransUnit) (v : Visit) : (U.decl v).requests = requestsOf U.E v := by cases v <;> rfl
theorem decl_genCode (U : TransUnit) (v : Visit) : (U.decl v).genCode = bindingOf U.E v := by cases v <;> rfl
theorem decl_genPrefix (U : TransUnit) (v : Visit) : (U.decl v).genPrefix = prefixOf U.E v := by cases v <;> rfl
theorem decl_inSystem (U : TransUnit) (v : Visit) : (U.decl v).inSystem = U.inSystem v := by cases v <;> rfl
theorem decl_skipAsked (U : TransUnit) (v : Visit) : (U.decl v).skipAsked = answer (skipQuery U.E v) := by cases v <;> rfl
theorem decl_bindAsked (U : TransUnit) (v : Visit) : (U.decl v).bindAsked = answer (bindQuery U.E v) := by cases v <;> rfl

theorem decl_builtin (U : TransUnit) (v : Visit) : (U.decl v).builtin = true ↔ Converted U.E v := by cases v <;> exact Iff.rfl

theorem offered_iff (U : TransUnit) (v : Visit) : U.offered v = true ↔ Standalone U.E v := by
  cases v with
  | fn F => simp [TransUnit.offered, Standalone]
  | cls i => simp [TransUnit.offered, Standalone, Record.isMember]
  | enm i => simp [TransUnit.offered, Standalone, and_comm]

theorem decl_canBind (U : TransUnit) (v : Visit) (h : U.offered v = true) : (U.decl v).canBind = true ↔ CanBind U.E v := by
  cases v with
  | fn F => simp only [TransUnit.offered, Bool.and_eq_true] at h; simp [TransUnit.decl, functionDecl, CanBind, h.2]
  | cls i => simp only [TransUnit.offered, Bool.and_eq_true] at h; simp [TransUnit.decl, classDecl, CanBind, h.2]
  | enm i => simp [TransUnit.decl, enumDecl, CanBind]

theorem considered_eq (U : TransUnit) : considered U = firstOfName U.E (U.visits.filter U.offered) := by
  unfold considered
  congr 1
  apply List.filter_congr
  intro v _
  cases h : U.offered v with
  | true => simp [(offered_iff U v).1 h]
  | false => simp; intro h'; rw [(offered_iff U v).2 h'] at h; cases h

theorem firstSeen_map (U : TransUnit) (vs : List Visit) : firstSeen (vs.map U.decl) = (firstOfName U.E vs).map U.decl := by
  induction vs with
  | nil => rfl
  | cons v vs ih =>
    simp only [List.map_cons, firstSeen, firstOfName, ih, List.filter_map]
    congr 2
    apply List.filter_congr
    intro w _
    simp only [Function.comp, decl_ident]

theorem firstSeen_offers (U : TransUnit) : firstSeen U.offers = (considered U).map U.decl := by
  rw [TransUnit.offers, firstSeen_map, considered_eq]

theorem mem_firstOfName {E : Env} {vs : List Visit} {v : Visit} (h : v ∈ firstOfName E vs) : v ∈ vs := by
  induction vs with
  | nil => cases h
  | cons w vs ih =>
    rcases List.mem_cons.1 h with rfl | h
    · exact List.mem_cons_self
    · exact List.mem_cons_of_mem _ (ih (List.mem_filter.1 h).1)

theorem considered_offered {U : TransUnit} {v : Visit} (h : v ∈ considered U) : v ∈ U.visits ∧ U.offered v = true := by
  rw [considered_eq] at h
  exact List.mem_filter.1 (mem_firstOfName h)

theorem firstOfName_length (E : Env) (vs : List Visit) : (firstOfName E vs).length ≤ vs.length := by
  induction vs with
  | nil => exact Nat.le_refl _
  | cons v vs ih => exact Nat.succ_le_succ (Nat.le_trans (List.length_filter_le _ _) ih)

theorem offers_productive (U : TransUnit) : ∀ d ∈ U.offers, d.builtin = false → d.genCode ≠ [] := by
  intro d hd hb
  obtain ⟨v, _, rfl⟩ := List.mem_map.1 hd
  cases v with
  | fn F => exact C25_function_text U.E F
  | cls i => exact C25_class_text U.E i hb
  | enm i => exact C25_enum_text U.E _

/-! ## No contradiction among the requests -/

theorem conflictIn_false {U : TransUnit} {seen : List Str} {vs : List Visit} (h : U.conflictIn seen vs = false) :
    ∀ v ∈ firstOfName U.E vs, identOf U.E v ∉ seen → (U.decl v).canBind = true → U.conflict v = false := by
  induction vs generalizing seen with
  | nil => intro v hv; cases hv
  | cons w vs ih =>
    intro v hv hn hc
    rw [TransUnit.conflictIn] at h
    split at h
    · rename_i hs
      rw [decl_ident] at hs
      rcases List.mem_cons.1 hv with rfl | hv
      · exact absurd (List.contains_iff_mem.1 hs) hn
      · exact ih h v (List.mem_filter.1 hv).1 hn hc
    · rw [Bool.or_eq_false_iff] at h
      rcases List.mem_cons.1 hv with rfl | hv
      · have := h.1; rw [hc, Bool.true_and] at this; exact this
      · obtain ⟨hv1, hv2⟩ := List.mem_filter.1 hv
        refine ih h.2 v hv1 ?_ hc
        rw [decl_ident, List.mem_cons]
        rintro (h' | h')
        · exact (of_decide_eq_true hv2) h'
        · exact hn h'

theorem answer_of_not_throws {x : Except QueryError Bool} (h : throws x = false) (b : Bool) : answer x = b ↔ x = .ok b := by
  cases x with
  | ok c => simp [answer]
  | error e => cases h

theorem conflict_skip {U : TransUnit} {v : Visit} (h : U.conflict v = false) (b : Bool) :
    answer (skipQuery U.E v) = b ↔ skipQuery U.E v = .ok b := by
  rw [TransUnit.conflict, Bool.or_eq_false_iff] at h
  exact answer_of_not_throws h.1 b

theorem conflict_bind {U : TransUnit} {v : Visit} (h : U.conflict v = false) (hs : U.inSystem v = false) (hk : skipQuery U.E v = .ok false) (b : Bool) :
    answer (bindQuery U.E v) = b ↔ bindQuery U.E v = .ok b := by
  rw [TransUnit.conflict, Bool.or_eq_false_iff, hs, hk] at h
  exact answer_of_not_throws (by simpa [answer] using h.2) b

theorem allowed_iff {U : TransUnit} (hc : U.conflictIn [] (U.visits.filter U.offered) = false) {v : Visit} (hv : v ∈ considered U) :
    Eligible (U.decl v) ↔ Allowed U.E v := by
  have ho := (considered_offered hv).2
  rw [considered_eq] at hv
  constructor
  · rintro ⟨h1, h2, h3⟩
    refine ⟨(decl_canBind U v ho).1 h1, ?_, fun h => ?_⟩
    · rw [decl_skipAsked] at h2
      exact (conflict_skip (conflictIn_false hc v hv List.not_mem_nil h1) false).1 h2
    · rw [(decl_builtin U v).2 h] at h3; cases h3
  · rintro ⟨h1, h2, h3⟩
    have h1' := (decl_canBind U v ho).2 h1
    refine ⟨h1', ?_, ?_⟩
    · rw [decl_skipAsked, h2]; rfl
    · cases hb : (U.decl v).builtin with
      | false => rfl
      | true => exact absurd ((decl_builtin U v).1 hb) h3

theorem Spec.Reached.considered {U : TransUnit} {v : Visit} (h : Reached U v) : v ∈ Spec.considered U := by
  cases h with
  | asked h => exact h
  | needed _ _ h => obtain ⟨b, a, e, _⟩ := h; rw [e]; simp

theorem Spec.Reached.allowed {U : TransUnit} {v : Visit} (h : Reached U v) : Allowed U.E v := by
  cases h <;> assumption

theorem bound_of_reached {U : TransUnit} (hc : U.conflictIn [] (U.visits.filter U.offered) = false) {v : Visit} (h : Reached U v) :
    Bound (firstSeen U.offers) (U.decl v) := by
  induction h with
  | asked hv ha hs hb =>
    refine .asked ?_ ((allowed_iff hc hv).2 ha) ?_ (by rw [decl_inSystem]; exact hs)
    · rw [firstSeen_offers]; exact List.mem_map_of_mem hv
    · rw [decl_bindAsked, hb]; rfl
  | needed hw ht hd ha ih =>
    obtain ⟨b, a, e, h1, h2⟩ := hd
    refine .mentioned ih (by rw [decl_requests]; exact ht) ⟨b.map U.decl, a.map U.decl, ?_, ?_, ?_⟩ ((allowed_iff hc (by rw [e]; simp)).2 ha)
    · rw [firstSeen_offers, e]; simp
    · rw [decl_typeName]; exact h1
    · intro x hx
      obtain ⟨w, hw, rfl⟩ := List.mem_map.1 hx
      rw [decl_typeName]; exact h2 w hw

theorem reached_of_bound {U : TransUnit} (hc : U.conflictIn [] (U.visits.filter U.offered) = false) {d : Decl}
    (h : Bound (firstSeen U.offers) d) : ∃ v, Reached U v ∧ U.decl v = d := by
  induction h with
  | asked hm hel hb hs =>
    rw [firstSeen_offers] at hm
    obtain ⟨v, hv, rfl⟩ := List.mem_map.1 hm
    have ha := (allowed_iff hc hv).1 hel
    rw [decl_inSystem] at hs
    refine ⟨v, .asked hv ha hs ?_, rfl⟩
    rw [decl_bindAsked] at hb
    have hv' := hv
    rw [considered_eq] at hv'
    exact (conflict_bind (conflictIn_false hc v hv' List.not_mem_nil hel.1) hs ha.notSkipped true).1 hb
  | mentioned _ ht hd hel ih =>
    obtain ⟨w, hw, rfl⟩ := ih
    obtain ⟨b, a, e, h1, h2⟩ := hd
    rw [firstSeen_offers] at e
    obtain ⟨b', a', e', hb', ha'⟩ := List.map_eq_append_iff.1 e
    obtain ⟨v, a'', rfl, hv, ha''⟩ := List.map_eq_cons_iff.1 ha'
    subst hv
    rw [decl_requests] at ht
    rw [decl_typeName] at h1
    refine ⟨v, .needed hw ht ⟨b', a'', e', h1, ?_⟩ ((allowed_iff hc (by rw [e']; simp)).1 hel), rfl⟩
    intro x hx
    have := h2 (U.decl x) (by rw [← ha'']; exact List.mem_map_of_mem hx)
    rwa [decl_typeName] at this

/-! ## The stages of a run -/

/-- The stages of a run that returns. -/
structure RunDone (U : TransUnit) (o : Opts) (fs fs' : FS) (st : BindState) (bs : List SortItem) (files : List OutFile) (fs1 fs2 : FS) : Prop where
  noConflict : U.conflictIn [] (U.visits.filter U.offered) = false
  bind : Loop.Returns (bindStep (register U.offers)) (bindStart (register U.offers)) st
  opened : writeFile fs (rootPath o) [] = some fs1
  sort : Loop.Returns sortStep (sortInput (register U.offers) st) (some bs)
  gen : Loop.Returns (genStep U.E.cfg o bs) GenState.init files
  update : updateAll o.pre fs1 (sourceFiles U.E.cfg o files) = some fs2
  finish : fs' = finishRun U.E.cfg o bs files fs2

theorem updateUntil_inr {pre : Str} {fs fs' : FS} {l : List (Str × Str)} : updateUntil pre fs l = .inr fs' ↔ updateAll pre fs l = some fs' := by
  induction l generalizing fs with
  | nil => simp [updateUntil, updateAll]
  | cons p l ih =>
    obtain ⟨n, t⟩ := p
    rw [updateUntil, updateAll]
    cases h : updateSourceFile fs pre n t with
    | none => simp
    | some fs2 => exact ih

theorem ends_done {U : TransUnit} {o : Opts} {fs fs' : FS} (h : U.Ends o fs (.done fs')) :
    ∃ st bs files fs1 fs2, RunDone U o fs fs' st bs files fs1 fs2 := by
  obtain ⟨n, h⟩ := h
  rw [TransUnit.runF] at h
  split at h
  · cases h
  rename_i hc
  simp only [generateF] at h
  split at h
  · cases h
  rename_i st hst
  split at h
  · cases h
  rename_i fs1 h1
  split at h
  · cases h
  · cases h
  rename_i bs hbs
  split at h
  · cases h
  rename_i files hfiles
  split at h
  · cases h
  rename_i fs2 h2
  cases h
  exact ⟨st, bs, files, fs1, fs2, by simpa using hc, ⟨n, hst⟩, h1, ⟨n, hbs⟩, ⟨n, hfiles⟩, updateUntil_inr.1 h2, rfl⟩

theorem ends_exit {U : TransUnit} {o : Opts} {fs fs' : FS} (h : U.Ends o fs (.exit fs')) :
    U.conflictIn [] (U.visits.filter U.offered) = false ∧ writeFile fs (rootPath o) [] = some fs' ∧
    ∃ st, Loop.Returns (bindStep (register U.offers)) (bindStart (register U.offers)) st ∧
      Loop.Returns sortStep (sortInput (register U.offers) st) none := by
  obtain ⟨n, h⟩ := h
  rw [TransUnit.runF] at h
  split at h
  · cases h
  rename_i hc
  simp only [generateF] at h
  split at h
  · cases h
  rename_i st hst
  split at h
  · cases h
  rename_i fs1 h1
  split at h
  · cases h
  · rename_i hs
    cases h
    exact ⟨by simpa using hc, h1, st, ⟨n, hst⟩, ⟨n, hs⟩⟩
  rename_i bs hbs
  split at h
  · cases h
  rename_i files hfiles
  split at h <;> cases h

/-! ## The items that are sorted -/

theorem firstOfName_inj {E : Env} {vs : List Visit} {v w : Visit} (hv : v ∈ firstOfName E vs) (hw : w ∈ firstOfName E vs)
    (h : identOf E v = identOf E w) : v = w := by
  induction vs with
  | nil => cases hv
  | cons x vs ih =>
    rcases List.mem_cons.1 hv with rfl | hv <;> rcases List.mem_cons.1 hw with rfl | hw
    · rfl
    · exact absurd h.symm (of_decide_eq_true (List.mem_filter.1 hw).2)
    · exact absurd h (of_decide_eq_true (List.mem_filter.1 hv).2)
    · exact ih (List.mem_filter.1 hv).1 (List.mem_filter.1 hw).1

theorem considered_inj {U : TransUnit} {v w : Visit} (hv : v ∈ considered U) (hw : w ∈ considered U) (h : U.decl v = U.decl w) : v = w :=
  firstOfName_inj hv hw (by rw [← decl_ident, ← decl_ident, h])

theorem reached_iff_bound {U : TransUnit} (hc : U.conflictIn [] (U.visits.filter U.offered) = false) {v : Visit} (hv : v ∈ considered U) :
    Bound (firstSeen U.offers) (U.decl v) ↔ Reached U v := by
  refine ⟨fun h => ?_, bound_of_reached hc⟩
  obtain ⟨w, hw, e⟩ := reached_of_bound hc h
  rw [← considered_inj hw.considered hv e]
  exact hw

theorem bindingOf_ne_nil {U : TransUnit} {v : Visit} (h : Reached U v) : bindingOf U.E v ≠ [] := by
  have hb : (U.decl v).builtin = false := by
    cases hb : (U.decl v).builtin with
    | false => rfl
    | true => exact absurd ((decl_builtin U v).1 hb) h.allowed.notConverted
  rw [← decl_genCode]
  obtain ⟨h1, h2⟩ := considered_offered h.considered
  exact offers_productive U _ (List.mem_map_of_mem (List.mem_filter.2 ⟨h1, h2⟩)) hb

/-- The items handed to the sorting. -/
theorem item_of_sortInput {U : TransUnit} (hc : U.conflictIn [] (U.visits.filter U.offered) = false) {st : BindState}
    (hb : Loop.Returns (bindStep (register U.offers)) (bindStart (register U.offers)) st) {b : SortItem} (h : b ∈ sortInput (register U.offers) st) :
    ∃ v ∈ considered U, b.decl = U.decl v ∧ (Reached U v → b.code = bindingOf U.E v) ∧ (¬ Reached U v → b.code = []) := by
  obtain ⟨i, h1, h2⟩ := mem_sortInput h
  have hm := List.mem_of_getElem? h1
  rw [register_binders, firstSeen_offers] at hm
  obtain ⟨v, hv, e⟩ := List.mem_map.1 hm
  have h3 := C24_least_closure U.offers (offers_productive U) st hb i _ h1
  rw [← h2, ← e] at h3
  refine ⟨v, hv, e.symm, ?_, ?_⟩
  · intro hr; rw [h3, if_pos ((reached_iff_bound hc hv).2 hr), decl_genCode]
  · intro hr; rw [h3, if_neg (fun h => hr ((reached_iff_bound hc hv).1 h))]

theorem sortInput_of_considered {U : TransUnit} {st : BindState} {v : Visit} (hv : v ∈ considered U) :
    ∃ b ∈ sortInput (register U.offers) st, b.decl = U.decl v := by
  have hm : U.decl v ∈ (register U.offers).binders := by
    rw [register_binders, firstSeen_offers]; exact List.mem_map_of_mem hv
  obtain ⟨i, hi⟩ := List.mem_iff_getElem?.1 hm
  exact ⟨⟨U.decl v, st.code i⟩, List.mem_map.2 ⟨(U.decl v, i), List.mem_zipIdx_iff_getElem?.2 hi, rfl⟩, rfl⟩

theorem sortInput_decls (U : TransUnit) (st : BindState) : (sortInput (register U.offers) st).map (·.decl) = (considered U).map U.decl := by
  rw [← firstSeen_offers, ← register_binders]
  unfold sortInput
  rw [List.map_map]
  exact List.zipIdx_map_fst 0 _

theorem firstOfName_nodup (E : Env) (vs : List Visit) : ((firstOfName E vs).map (identOf E)).Nodup := by
  induction vs with
  | nil => exact List.nodup_nil
  | cons v vs ih =>
    rw [firstOfName, List.map_cons, List.nodup_cons]
    refine ⟨?_, ih.sublist (List.filter_sublist.map _)⟩
    intro h
    obtain ⟨w, hw, e⟩ := List.mem_map.1 h
    exact (of_decide_eq_true (List.mem_filter.1 hw).2) e

section Done

variable {U : TransUnit} {o : Opts} {fs fs' : FS} {st : BindState} {bs : List SortItem} {files : List OutFile} {fs1 fs2 : FS}

theorem RunDone.length (h : RunDone U o fs fs' st bs files fs1 fs2) : bs.length ≤ U.visits.length := by
  have h1 := (C28_permutation _ _ h.sort).length_eq
  have h2 := congrArg List.length (sortInput_decls U st)
  rw [List.length_map, List.length_map, considered_eq] at h2
  rw [h1, h2]
  exact Nat.le_trans (firstOfName_length _ _) (List.length_filter_le _ _)

theorem RunDone.item (h : RunDone U o fs fs' st bs files fs1 fs2) {b : SortItem} (hb : b ∈ bs) :
    ∃ v ∈ considered U, b.decl = U.decl v ∧ (Reached U v → b.code = bindingOf U.E v) ∧ (¬ Reached U v → b.code = []) :=
  item_of_sortInput h.noConflict h.bind ((C28_permutation _ _ h.sort).mem_iff.1 hb)

theorem RunDone.item_of (h : RunDone U o fs fs' st bs files fs1 fs2) {v : Visit} (hv : v ∈ considered U) : ∃ b ∈ bs, b.decl = U.decl v := by
  obtain ⟨b, hb, e⟩ := sortInput_of_considered (st := st) hv
  exact ⟨b, (C28_permutation _ _ h.sort).mem_iff.2 hb, e⟩

theorem RunDone.idents (h : RunDone U o fs fs' st bs files fs1 fs2) : (bs.map (·.decl.ident)).Nodup := by
  have hp := ((C28_permutation _ _ h.sort).map (·.decl.ident))
  rw [hp.nodup_iff]
  have : (sortInput (register U.offers) st).map (·.decl.ident) = (considered U).map (identOf U.E) := by
    have := congrArg (List.map Decl.ident) (sortInput_decls U st)
    rw [List.map_map, List.map_map] at this
    exact this.trans (List.map_congr_left fun v _ => decl_ident U v)
  rw [this, considered_eq]
  exact firstOfName_nodup _ _

open Classical in
/-- The declaration an item was made from. -/
noncomputable def visitOf (U : TransUnit) (b : SortItem) : Visit :=
  if h : ∃ v ∈ considered U, b.decl = U.decl v then h.choose else .enm 0

theorem RunDone.visitOf (h : RunDone U o fs fs' st bs files fs1 fs2) {b : SortItem} (hb : b ∈ bs) :
    visitOf U b ∈ considered U ∧ b.decl = U.decl (visitOf U b) ∧
    (Reached U (Binder.visitOf U b) → b.code = bindingOf U.E (Binder.visitOf U b)) ∧ (¬ Reached U (Binder.visitOf U b) → b.code = []) := by
  obtain ⟨v, hv, e, h1⟩ := h.item hb
  have hex : ∃ v ∈ considered U, b.decl = U.decl v := ⟨v, hv, e⟩
  have hs : Binder.visitOf U b ∈ considered U ∧ b.decl = U.decl (Binder.visitOf U b) := by
    unfold Binder.visitOf; rw [dif_pos hex]; exact hex.choose_spec
  have : Binder.visitOf U b = v := considered_inj hs.1 hv (hs.2.symm.trans e)
  rw [this] at hs ⊢
  exact ⟨hs.1, hs.2, h1⟩

/-- The entries of a generated function, as the specification sees them. -/
noncomputable def stmtOf (U : TransUnit) : Piece → Stmt
  | .nsCall f ns => .calls f ns
  | .addOn f ns => .calls f ns
  | .trace n id => .traces n id
  | .code b => .binds (Binder.visitOf U b)

/-- A generated file, as the specification sees it. -/
noncomputable def sourceOf (U : TransUnit) (o : Opts) (F : OutFile) : Source :=
  ⟨F.name, generateIncludeDirectives U.E.cfg F.includes ++ moduleHeader U.E.cfg o.stl, F.fn, F.body.map (stmtOf U)⟩

theorem bound_eq (U : TransUnit) (o : Opts) (F : OutFile) : (sourceOf U o F).bound = (declsOf F).map (Binder.visitOf U) := by
  unfold Source.bound sourceOf declsOf
  simp only [List.filterMap_map, List.map_filterMap]
  congr 1
  funext p
  cases p <;> rfl

theorem RunDone.decls_mem (h : RunDone U o fs fs' st bs files fs1 fs2) (hn : bs.length + 1 < 2 ^ 32) {F : OutFile} (hF : F ∈ files) {b : SortItem}
    (hb : b ∈ declsOf F) : b ∈ bs ∧ b.code ≠ [] ∧ U.E.cfg.binderForNamespaces b.decl.ns = none := by
  have hm : b ∈ files.flatMap declsOf := List.mem_flatMap.2 ⟨F, hF, hb⟩
  rw [C31_emitted_once_in_order _ o bs hn files h.gen] at hm
  obtain ⟨h1, h2⟩ := List.mem_filter.1 hm
  rw [Bool.and_eq_true] at h2
  exact ⟨h1, by simpa using h2.1, by simpa using h2.2⟩

theorem RunDone.reached (h : RunDone U o fs fs' st bs files fs1 fs2) {b : SortItem} (hb : b ∈ bs) (hc : b.code ≠ []) : Reached U (Binder.visitOf U b) :=
  Classical.byContradiction fun hn => hc ((h.visitOf hb).2.2.2 hn)

/-- `prefix_code` of a file is that of the declarations bound in it. -/
theorem gen_pre {c : Config} (hn : bs.length + 1 < 2 ^ 32) (hr : Loop.Returns (genStep c o bs) GenState.init files) {F : OutFile} (hF : F ∈ files) :
    F.pre = (declsOf F).flatMap SortItem.pre := by
  refine gen_each hn hr (fun F => F.pre = (declsOf F).flatMap SortItem.pre) ?_ F hF
  intro s s' b F k _ _ hw
  rw [hw.pre, write_decls hw]
  have hq : ∀ x ∈ (bs.drop s.i).take k, x.decl.ns = b.decl.ns := hw.taken
  generalize (bs.drop s.i).take k = l at hq
  cases hsk : (c.binderForNamespaces b.decl.ns) with
  | none =>
    simp only [Option.isSome_none, Bool.false_eq_true, if_false]
    induction l with
    | nil => rfl
    | cons x l ih =>
      have hx : c.binderForNamespaces x.decl.ns = none := by rw [hq x List.mem_cons_self, hsk]
      rw [expected, List.filter_cons, ← expected, List.flatMap_cons, ih fun y hy => hq y (List.mem_cons_of_mem _ hy)]
      cases hcode : x.code with
      | nil => simp [SortItem.pre, hcode]
      | cons c cs => simp [hx]
  | some f =>
    simp only [Option.isSome_some, if_true]
    symm
    rw [List.flatMap_eq_nil_iff]
    intro x hx
    obtain ⟨h1, h2⟩ := List.mem_filter.1 hx
    rw [hq x h1, hsk] at h2
    simp at h2

theorem RunDone.text (h : RunDone U o fs fs' st bs files fs1 fs2) (hn : bs.length + 1 < 2 ^ 32) {F : OutFile} (hF : F ∈ files) :
    (sourceOf U o F).text U.E = F.text U.E.cfg o := by
  have h1 : codeText F.body = (F.body.map (stmtOf U)).flatMap (Stmt.text U.E) := by
    unfold codeText
    rw [List.flatMap_map, List.flatMap_def, List.flatMap_def]
    congr 1
    apply List.map_congr_left
    intro p hp
    cases p with
    | code b =>
      obtain ⟨hb, hc, _⟩ := h.decls_mem hn hF (List.mem_filterMap.2 ⟨_, hp, rfl⟩)
      exact (h.visitOf hb).2.2.1 (h.reached hb hc)
    | _ => rfl
  have h2 : F.pre = (sourceOf U o F).bound.flatMap (prefixOf U.E) := by
    rw [gen_pre hn h.gen hF, bound_eq, List.flatMap_map, List.flatMap_def, List.flatMap_def]
    congr 1
    apply List.map_congr_left
    intro b hb
    obtain ⟨hb, hc, _⟩ := h.decls_mem hn hF hb
    rw [← decl_genPrefix, ← (h.visitOf hb).2.1]
    unfold SortItem.pre
    rw [if_pos (by simpa using hc)]
  unfold Source.text OutFile.text
  rw [← h2, h1]
  rfl

/-! ## The files at the end -/

theorem tryWrite_ne (fs : FS) (name text x : Str) (h : x ≠ name) : (fs.tryWrite name text).files x = fs.files x := by
  unfold FS.tryWrite writeFile
  split
  · rfl
  · simp [h]

theorem overwrite_ne (fs : FS) (name text x : Str) (h : x ≠ name) : (fs.overwrite name text).files x = fs.files x := by
  simp [FS.overwrite, h]

theorem sourcesOf_distinct (h : RunDone U o fs fs' st bs files fs1 fs2) (hn : bs.length + 1 < 2 ^ 32) (hd : DistinctNames U o)
    (hs : o.single = false) : (sourcesOf o files).Nodup := by
  rcases hd with hd | hd | hd
  · rw [hs] at hd; cases hd
  · exact (C22_flat_distinct _ o hd bs hn files h.gen).1
  · cases hf : o.flat with
    | true => exact (C22_flat_distinct _ o hf bs hn files h.gen).1
    | false =>
      obtain ⟨h1, h2, h3⟩ := hd
      have hkey : ∀ b ∈ bs, ∃ v ∈ U.visits, fileKey o b = fileNamePrefix (U.decl v).incl (namespaceOf U.E v) := by
        intro b hb
        obtain ⟨v, hv, e, _⟩ := h.item hb
        refine ⟨v, (considered_offered hv).1, ?_⟩
        rw [fileKey, hf, e, decl_ns]
        rfl
      refine (C22_headers_partial _ o hf bs hn ?_ ?_ ?_ files h.gen).1
      · intro b hb n
        obtain ⟨v, hv, e⟩ := hkey b hb
        have := h1 v hv n
        rw [fileStem, hf, e]
        simpa using this
      · intro a ha b hb k hk
        obtain ⟨v, hv, e⟩ := hkey a ha
        obtain ⟨w, hw, e'⟩ := hkey b hb
        rw [e, e']
        exact h2 v hv w hw k hk
      · intro a ha b hb hk
        obtain ⟨v, hv, e⟩ := hkey a ha
        obtain ⟨w, hw, e'⟩ := hkey b hb
        rw [e, e'] at hk ⊢
        exact h3 v hv w hw hk

theorem cpp_ne {a b ext : Str} (h : ext.getLast? ≠ some 'p') (hne : ext ≠ []) : a ++ c!".cpp" ≠ b ++ ext := by
  intro e
  have := congrArg List.getLast? e
  rw [List.getLast?_append, List.getLast?_append] at this
  cases hx : ext.getLast? with
  | none => exact hne (List.getLast?_eq_none_iff.1 hx)
  | some c => rw [hx] at this h; simp at this; exact h (by rw [← this])

theorem writeFile_some {fs fs' : FS} {name text : Str} (h : writeFile fs name text = some fs') :
    fs'.files = fun x => if x = name then some text else fs.files x := by
  unfold writeFile at h
  split at h
  · cases h
  · cases h; rfl

theorem writeFile_wf {fs fs' : FS} {name text : Str} (hw : fs.WF) (h : writeFile fs name text = some fs') : fs'.WF := by
  unfold writeFile at h
  split at h
  · cases h
  · rename_i hd
    cases h
    simp only [Bool.or_eq_true, not_or] at hd
    intro p hp
    have : p ≠ name := by rintro rfl; exact hd.1 hp
    simp only [this, if_false]
    exact hw p hp

theorem callsAll_root (c : Config) (o : Opts) (U : TransUnit) (nss : List Str) (files : List OutFile) :
    CallsAll (rootText c o nss (functionNames files)) (files.map (sourceOf U o)) := by
  refine ⟨rootHead c ++ declsText (functionNames files) ++ rootMiddle o nss, ?_, ?_⟩
  · unfold rootText callsText functionNames
    rw [List.flatMap_map, List.flatMap_map]
    rfl
  · unfold rootMiddle
    simp only [← List.append_assoc]
    exact List.suffix_append _ _

/-- The files at the end of a run that returns. -/
theorem RunDone.written (h : RunDone U o fs fs' st bs files fs1 fs2) (hw : fs.WF) (hn : U.visits.length + 1 < 2 ^ 32) (hd : DistinctNames U o) :
    Written U.E o fs fs' (files.map (sourceOf U o)) := by
  have hn' : bs.length + 1 < 2 ^ 32 := by have := h.length; omega
  have hopen := writeFile_some h.opened
  have hupd := h.update
  unfold Written
  split
  · rename_i hs
    unfold sourceFiles at hupd
    rw [if_pos hs] at hupd
    cases hupd
    refine ⟨rootText U.E.cfg o (allNestedNamespaces bs) (functionNames files), ?_, callsAll_root _ _ _ _ _, ?_, ?_⟩
    · exact c!"\n// Source list file: " ++ (o.pre ++ c!"/" ++ o.root) ++ c!".sources\n" ++
        (sourcesOf o files).flatMap (fun s => c!"// " ++ s ++ c!"\n") ++
        c!"\n// Modules list file: " ++ (o.pre ++ c!"/" ++ o.root) ++ c!".modules\n// " ++ modulesText (allNestedNamespaces bs) ++ c!"\n"
    · rw [h.finish, finishRun, if_pos hs]
      simp only [FS.overwrite, if_true, hopen, Option.getD_some, List.drop_nil, List.append_nil]
      rw [rootFileText, if_pos hs]
      have : (files.map (sourceOf U o)).flatMap (fun s => c!"// File: " ++ s.name ++ c!"\n" ++ s.text U.E ++ c!"\n\n") =
          files.flatMap (fun f => c!"// File: " ++ f.name ++ c!"\n" ++ f.text U.E.cfg o ++ c!"\n\n") := by
        rw [List.flatMap_map, List.flatMap_def, List.flatMap_def]
        congr 1
        apply List.map_congr_left
        intro F hF
        rw [h.text hn' hF]
        rfl
      rw [this]
      simp only [List.append_assoc]
    · intro x hx
      rw [h.finish, finishRun, if_pos hs]
      simp only [FS.overwrite, hx, if_false, hopen]
  · rename_i hs
    have hs : o.single = false := by simpa using hs
    have hnd := sourcesOf_distinct h hn' hd hs
    unfold sourcesOf at hnd
    rw [List.nodup_cons] at hnd
    have hsf : sourceFiles U.E.cfg o files = files.map fun f => (f.name, f.text U.E.cfg o) := by
      unfold sourceFiles; rw [hs]; rfl
    rw [hsf] at hupd
    obtain ⟨_, hfiles, hframe, _⟩ := updateAll_some (writeFile_wf hw h.opened) (by
      intro p hp
      obtain ⟨F, _, rfl⟩ := List.mem_map.1 hp
      exact C20_texts_not_empty _ _ _) (by rw [List.map_map]; exact hnd.2) hupd
    have hroot2 : fs2.files (rootPath o) = some [] := by
      rw [hframe, hopen]
      · simp
      · intro p hp e
        obtain ⟨F, hF, rfl⟩ := List.mem_map.1 hp
        refine hnd.1 (List.mem_map.2 ⟨F, hF, ?_⟩)
        exact (List.append_cancel_left e).symm
    have hfin : ∀ x, x ≠ o.pre ++ c!"/" ++ o.root ++ c!".sources" → x ≠ o.pre ++ c!"/" ++ o.root ++ c!".modules" →
        fs'.files x = (fs2.overwrite (rootPath o) (rootFileText U.E.cfg o (allNestedNamespaces bs) files)).files x := by
      intro x h1 h2
      rw [h.finish, finishRun, hs]
      simp only [Bool.false_eq_true, if_false]
      rw [tryWrite_ne _ _ _ _ h2, tryWrite_ne _ _ _ _ h1]
    refine ⟨?_, ⟨rootText U.E.cfg o (allNestedNamespaces bs) (functionNames files), callsAll_root _ _ _ _ _, ?_⟩, ?_⟩
    · intro s hs'
      obtain ⟨F, hF, rfl⟩ := List.mem_map.1 hs'
      obtain ⟨np, n, b, _, _, hname, _⟩ := gen_name hn' h.gen hF
      have e : o.pre ++ c!"/" ++ (sourceOf U o F).name = (o.pre ++ c!"/" ++ fileStem o np n) ++ c!".cpp" := by
        show o.pre ++ c!"/" ++ F.name = _
        rw [hname]; simp
      rw [hfin, overwrite_ne]
      · rw [h.text hn' hF]
        exact (hfiles _ (List.mem_map_of_mem hF)).1
      · intro e
        refine hnd.1 (List.mem_map.2 ⟨F, hF, ?_⟩)
        exact List.append_cancel_left e
      · rw [e]; exact cpp_ne (by decide) (by decide)
      · rw [e]; exact cpp_ne (by decide) (by decide)
    · have e : rootPath o = (o.pre ++ c!"/" ++ o.root) ++ c!".cpp" := by unfold rootPath; simp
      rw [hfin]
      · simp only [FS.overwrite, if_true, hroot2, Option.getD_some, List.drop_nil, List.append_nil]
        rw [rootFileText, hs]
        rfl
      · rw [e]; exact cpp_ne (by decide) (by decide)
      · rw [e]; exact cpp_ne (by decide) (by decide)
    · intro x h1 h2 h3 h4
      rw [hfin x h2 h3, overwrite_ne _ _ _ _ h1, hframe, hopen]
      · simp [h1]
      · intro p hp
        obtain ⟨F, hF, rfl⟩ := List.mem_map.1 hp
        exact h4 _ (List.mem_map_of_mem hF)

/-! ## Repeating a run -/

theorem ends_of_done (h : RunDone U o fs fs' st bs files fs1 fs2) : U.Ends o fs (.done fs') := by
  obtain ⟨n1, h1⟩ := h.bind
  obtain ⟨n2, h2⟩ := h.sort
  obtain ⟨n3, h3⟩ := h.gen
  refine ⟨n1 + n2 + n3, ?_⟩
  rw [TransUnit.runF, h.noConflict]
  simp only [Bool.false_eq_true, if_false, generateF, Loop.run_mono h1 (by omega : n1 ≤ n1 + n2 + n3),
    Loop.run_mono h2 (by omega : n2 ≤ n1 + n2 + n3), Loop.run_mono h3 (by omega : n3 ≤ n1 + n2 + n3), h.opened, updateUntil_inr.2 h.update, h.finish]

theorem tryWrite_dirs (fs : FS) (name text : Str) : (fs.tryWrite name text).dirs = fs.dirs := by
  unfold FS.tryWrite writeFile
  split <;> rfl

theorem tryWrite_self (fs : FS) (name text : Str) (hp : fs.dirs (parentDir name) = true) :
    (fs.tryWrite name text).files name = if fs.dirs name then fs.files name else some text := by
  unfold FS.tryWrite writeFile
  rw [hp]
  cases fs.dirs name <;> simp

theorem tryWrite_writes (fs : FS) (name text : Str) : ∃ l, (fs.tryWrite name text).writes = fs.writes ++ l ∧ ∀ x ∈ l, x = name := by
  unfold FS.tryWrite writeFile
  split
  · exact ⟨[], by simp, by simp⟩
  · exact ⟨[name], by simp, by simp⟩

theorem tryWrite_wf {fs : FS} (hw : fs.WF) (name text : Str) : (fs.tryWrite name text).WF := by
  unfold FS.tryWrite
  cases h : writeFile fs name text with
  | none => exact hw
  | some fs' => exact writeFile_wf hw h

theorem overwrite_wf {fs : FS} (hw : fs.WF) {name text : Str} (h : fs.dirs name = false) : (fs.overwrite name text).WF := by
  intro p hp
  have hp' : fs.dirs p = true := hp
  have : p ≠ name := by rintro rfl; rw [h] at hp'; cases hp'
  simp only [FS.overwrite, this, if_false]
  exact hw p hp'

theorem writeFile_dirs {fs fs' : FS} {name text : Str} (h : writeFile fs name text = some fs') :
    fs'.dirs = fs.dirs ∧ fs'.writes = fs.writes ++ [name] ∧ fs.dirs name = false ∧ fs.dirs (parentDir name) = true := by
  unfold writeFile at h
  split at h
  · cases h
  · rename_i hd; cases h
    simp only [Bool.or_eq_true, not_or, Bool.not_eq_true, Bool.not_eq_eq_eq_not, Bool.not_true, Bool.not_false] at hd
    exact ⟨rfl, rfl, hd.1, by simpa using hd.2⟩

theorem writeFile_ok {fs : FS} {name : Str} (text : Str) (h : fs.dirs name = false) (hp : fs.dirs (parentDir name) = true) :
    ∃ fs', writeFile fs name text = some fs' := by
  unfold writeFile; rw [h, hp]; exact ⟨_, rfl⟩

theorem FS.WF.notDir {fs : FS} (hw : fs.WF) {x t : Str} (h : fs.files x = some t) : fs.dirs x = false := by
  cases hd : fs.dirs x with
  | false => rfl
  | true => rw [hw x hd] at h; cases h

theorem finishRun_dirs (c : Config) (bs : List SortItem) (files : List OutFile) (fs : FS) : (finishRun c o bs files fs).dirs = fs.dirs := by
  unfold finishRun
  simp only
  split
  · rfl
  · rw [tryWrite_dirs, tryWrite_dirs]; rfl

theorem finishRun_wf (c : Config) (bs : List SortItem) (files : List OutFile) {fs : FS} (hw : fs.WF) (h : fs.dirs (rootPath o) = false) :
    (finishRun c o bs files fs).WF := by
  unfold finishRun
  simp only
  split
  · exact overwrite_wf hw h
  · exact tryWrite_wf (tryWrite_wf (overwrite_wf hw h) _ _) _ _

theorem finishRun_writes (c : Config) (bs : List SortItem) (files : List OutFile) (fs : FS) :
    ∃ l, (finishRun c o bs files fs).writes = fs.writes ++ l ∧
      ∀ x ∈ l, x = o.pre ++ c!"/" ++ o.root ++ c!".sources" ∨ x = o.pre ++ c!"/" ++ o.root ++ c!".modules" := by
  unfold finishRun
  simp only
  split
  · exact ⟨[], by simp [FS.overwrite], by simp⟩
  · obtain ⟨l1, e1, h1⟩ := tryWrite_writes (fs.overwrite (rootPath o) (rootFileText c o (allNestedNamespaces bs) files))
      (o.pre ++ c!"/" ++ o.root ++ c!".sources") (sourcesText o files)
    obtain ⟨l2, e2, h2⟩ := tryWrite_writes ((fs.overwrite (rootPath o) (rootFileText c o (allNestedNamespaces bs) files)).tryWrite
      (o.pre ++ c!"/" ++ o.root ++ c!".sources") (sourcesText o files)) (o.pre ++ c!"/" ++ o.root ++ c!".modules") (modulesText (allNestedNamespaces bs))
    refine ⟨l1 ++ l2, by rw [e2, e1]; simp [FS.overwrite], ?_⟩
    intro x hx
    rcases List.mem_append.1 hx with hx | hx
    · exact .inl (h1 x hx)
    · exact .inr (h2 x hx)

theorem finishRun_files (c : Config) (bs : List SortItem) (files : List OutFile) (fs : FS) (hp : fs.dirs (parentDir (rootPath o)) = true) (x : Str) :
    (finishRun c o bs files fs).files x =
      if x = rootPath o then some (rootFileText c o (allNestedNamespaces bs) files ++
          ((fs.files (rootPath o)).getD []).drop (rootFileText c o (allNestedNamespaces bs) files).length)
      else if o.single then fs.files x
      else if x = o.pre ++ c!"/" ++ o.root ++ c!".sources" then (if fs.dirs x then fs.files x else some (sourcesText o files))
      else if x = o.pre ++ c!"/" ++ o.root ++ c!".modules" then (if fs.dirs x then fs.files x else some (modulesText (allNestedNamespaces bs)))
      else fs.files x := by
  have e : rootPath o = (o.pre ++ c!"/" ++ o.root) ++ c!".cpp" := by unfold rootPath; simp
  have hs : rootPath o ≠ o.pre ++ c!"/" ++ o.root ++ c!".sources" := by rw [e]; exact cpp_ne (by decide) (by decide)
  have hm : rootPath o ≠ o.pre ++ c!"/" ++ o.root ++ c!".modules" := by rw [e]; exact cpp_ne (by decide) (by decide)
  rw [e, parentDir_ext (by decide)] at hp
  have hps : fs.dirs (parentDir (o.pre ++ c!"/" ++ o.root ++ c!".sources")) = true := by rw [parentDir_ext (by decide)]; exact hp
  have hpm : fs.dirs (parentDir (o.pre ++ c!"/" ++ o.root ++ c!".modules")) = true := by rw [parentDir_ext (by decide)]; exact hp
  have hsm : o.pre ++ c!"/" ++ o.root ++ c!".sources" ≠ o.pre ++ c!"/" ++ o.root ++ c!".modules" := by
    intro h; have := List.append_cancel_left h; revert this; decide
  unfold finishRun
  simp only
  cases o.single with
  | true => simp only [if_true, FS.overwrite]
  | false =>
    simp only [Bool.false_eq_true, if_false]
    by_cases h1 : x = rootPath o
    · subst h1
      rw [tryWrite_ne _ _ _ _ hm, tryWrite_ne _ _ _ _ hs]
      simp [FS.overwrite]
    · rw [if_neg h1]
      by_cases h2 : x = o.pre ++ c!"/" ++ o.root ++ c!".sources"
      · subst h2
        rw [tryWrite_ne _ _ _ _ hsm, tryWrite_self _ _ _ (by exact hps), if_pos rfl]
        rw [overwrite_ne _ _ _ _ h1]
        rfl
      · rw [if_neg h2]
        by_cases h3 : x = o.pre ++ c!"/" ++ o.root ++ c!".modules"
        · subst h3
          rw [tryWrite_self _ _ _ (by rw [tryWrite_dirs]; exact hpm), if_pos rfl, tryWrite_dirs, tryWrite_ne _ _ _ _ h2, overwrite_ne _ _ _ _ h1]
          rfl
        · rw [if_neg h3, tryWrite_ne _ _ _ _ h3, tryWrite_ne _ _ _ _ h2, overwrite_ne _ _ _ _ h1]

theorem finishRun_root (c : Config) (bs : List SortItem) (files : List OutFile) (fs : FS) :
    (finishRun c o bs files fs).files (rootPath o) = some (rootFileText c o (allNestedNamespaces bs) files ++
      ((fs.files (rootPath o)).getD []).drop (rootFileText c o (allNestedNamespaces bs) files).length) := by
  have e : rootPath o = (o.pre ++ c!"/" ++ o.root) ++ c!".cpp" := by unfold rootPath; simp
  unfold finishRun
  simp only
  split
  · simp only [if_true, FS.overwrite]
  · rw [tryWrite_ne _ _ _ _ (by rw [e]; exact cpp_ne (by decide) (by decide)), tryWrite_ne _ _ _ _ (by rw [e]; exact cpp_ne (by decide) (by decide))]
    simp [FS.overwrite]

theorem RunDone.names (h : RunDone U o fs fs' st bs files fs1 fs2) (hn : bs.length + 1 < 2 ^ 32) (hd : DistinctNames U o) :
    ((sourceFiles U.E.cfg o files).map (·.1)).Nodup ∧ (∀ p ∈ sourceFiles U.E.cfg o files, p.2 ≠ []) ∧
    (∀ p ∈ sourceFiles U.E.cfg o files, o.pre ++ c!"/" ++ p.1 ≠ rootPath o) ∧ ∀ p ∈ sourceFiles U.E.cfg o files, ∃ stem, p.1 = stem ++ c!".cpp" := by
  cases hs : o.single with
  | true =>
    have : sourceFiles U.E.cfg o files = [] := by unfold sourceFiles; rw [hs]; rfl
    rw [this]
    simp
  | false =>
    have hnd := sourcesOf_distinct h hn hd hs
    unfold sourcesOf at hnd
    rw [List.nodup_cons] at hnd
    have hsf : sourceFiles U.E.cfg o files = files.map fun f => (f.name, f.text U.E.cfg o) := by
      unfold sourceFiles; rw [hs]; rfl
    rw [hsf]
    refine ⟨by rw [List.map_map]; exact hnd.2, ?_, ?_, ?_⟩
    · intro p hp
      obtain ⟨F, _, rfl⟩ := List.mem_map.1 hp
      exact C20_texts_not_empty _ _ _
    · intro p hp e
      obtain ⟨F, hF, rfl⟩ := List.mem_map.1 hp
      refine hnd.1 (List.mem_map.2 ⟨F, hF, ?_⟩)
      exact List.append_cancel_left e
    · intro p hp
      obtain ⟨F, hF, rfl⟩ := List.mem_map.1 hp
      obtain ⟨np, n, b, _, _, hname, _⟩ := gen_name hn h.gen hF
      exact ⟨_, hname⟩

/-- The files before the root module is completed. -/
theorem RunDone.middle (h : RunDone U o fs fs' st bs files fs1 fs2) (hw : fs.WF) (hn : bs.length + 1 < 2 ^ 32) (hd : DistinctNames U o) :
    fs2.WF ∧ fs2.files (rootPath o) = some [] ∧ fs2.dirs (parentDir (rootPath o)) = true ∧
    (∀ p ∈ sourceFiles U.E.cfg o files, fs2.files (o.pre ++ c!"/" ++ p.1) = some p.2 ∧ sourceDir o.pre p.1 ≠ [] ∧ ∀ d ∈ dirChain (sourceDir o.pre p.1), fs2.dirs d = true) := by
  obtain ⟨n1, n2, n3, _⟩ := h.names hn hd
  obtain ⟨w, hf, hfr, hmono⟩ := updateAll_some (writeFile_wf hw h.opened) n2 n1 h.update
  have hop := writeFile_dirs h.opened
  refine ⟨w, ?_, hmono _ (by rw [hop.1]; exact hop.2.2.2), hf⟩
  rw [hfr _ (fun p hp e => n3 p hp e.symm), writeFile_some h.opened]
  simp

theorem RunDone.again (h : RunDone U o fs fs' st bs files fs1 fs2) (hw : fs.WF) (hn : bs.length + 1 < 2 ^ 32) (hd : DistinctNames U o) :
    ∃ fs'' g1 g2, RunDone U o fs' fs'' st bs files g1 g2 ∧ fs''.files = fs'.files ∧
      ∃ l, fs''.writes = fs'.writes ++ l ∧ ∀ x ∈ l, x = rootPath o ∨ x = o.pre ++ c!"/" ++ o.root ++ c!".sources" ∨
        x = o.pre ++ c!"/" ++ o.root ++ c!".modules" := by
  obtain ⟨w2, hroot2, hpar2, hsrc2⟩ := h.middle hw hn hd
  obtain ⟨n1, n2, n3, n4⟩ := h.names hn hd
  have hrd : fs2.dirs (rootPath o) = false := w2.notDir hroot2
  have w' : fs'.WF := by rw [h.finish]; exact finishRun_wf _ _ _ w2 hrd
  have hd' : fs'.dirs = fs2.dirs := by rw [h.finish]; exact finishRun_dirs _ _ _ _
  obtain ⟨g1, hg1⟩ := writeFile_ok (fs := fs') [] (by rw [hd']; exact hrd : fs'.dirs (rootPath o) = false) (by rw [hd']; exact hpar2)
  have wg1 := writeFile_wf w' hg1
  have fg1 := writeFile_some hg1
  obtain ⟨dg1, wrg1, _⟩ := writeFile_dirs hg1
  have hfin : ∀ x, fs'.files x = _ := fun x => (by rw [h.finish] : fs'.files x = _).trans (finishRun_files _ _ _ _ hpar2 x)
  have hsrc' : ∀ p ∈ sourceFiles U.E.cfg o files, g1.files (o.pre ++ c!"/" ++ p.1) = some p.2 ∧ sourceDir o.pre p.1 ≠ [] ∧
      ∀ d ∈ dirChain (sourceDir o.pre p.1), g1.files d = none := by
    intro p hp
    refine ⟨?_, (hsrc2 p hp).2.1, ?_⟩
    · rw [fg1]
      simp only [n3 p hp, if_false]
      rw [hfin, if_neg (n3 p hp)]
      obtain ⟨stem, e⟩ := n4 p hp
      have e' : o.pre ++ c!"/" ++ p.1 = (o.pre ++ c!"/" ++ stem) ++ c!".cpp" := by rw [e]; simp
      have m1 : o.pre ++ c!"/" ++ p.1 ≠ o.pre ++ c!"/" ++ o.root ++ c!".sources" := by rw [e']; exact cpp_ne (by decide) (by decide)
      have m2 : o.pre ++ c!"/" ++ p.1 ≠ o.pre ++ c!"/" ++ o.root ++ c!".modules" := by rw [e']; exact cpp_ne (by decide) (by decide)
      rw [if_neg m1, if_neg m2, ite_self]
      exact (hsrc2 p hp).1
    · intro d hdc
      exact wg1 d (by rw [dg1, hd']; exact (hsrc2 p hp).2.2 d hdc)
  obtain ⟨g2, hg2, fg2, wrg2⟩ := updateAll_again hsrc'
  obtain ⟨wg2, _, _, mono⟩ := updateAll_some wg1 n2 n1 hg2
  refine ⟨finishRun U.E.cfg o bs files g2, g1, g2, ⟨h.noConflict, h.bind, hg1, h.sort, h.gen, hg2, rfl⟩, ?_, ?_⟩
  · funext x
    rw [finishRun_files _ _ _ _ (mono _ (by rw [dg1, hd']; exact hpar2)), fg2, fg1]
    simp only [if_true, Option.getD_some, List.drop_nil, List.append_nil]
    by_cases h1 : x = rootPath o
    · rw [if_pos h1, hfin x, if_pos h1, hroot2]
      simp
    · rw [if_neg h1, if_neg h1]
      cases hs : o.single with
      | true => simp
      | false =>
        simp only [Bool.false_eq_true, if_false]
        have key : ∀ t, x ≠ rootPath o → fs'.files x = (if fs2.dirs x then fs2.files x else some t) →
            (if g2.dirs x then fs'.files x else some t) = fs'.files x := by
          intro t hx hf
          cases hdx : fs2.dirs x with
          | true =>
            rw [if_pos]
            exact mono x (by rw [dg1, hd']; exact hdx)
          | false =>
            rw [hdx] at hf
            have : g2.files x = some t := by rw [fg2, fg1]; simp only [hx, if_false]; exact hf
            rw [wg2.notDir this]
            exact hf.symm
        have hfx := hfin x
        rw [if_neg h1, hs] at hfx
        simp only [Bool.false_eq_true, if_false] at hfx
        by_cases h2 : x = o.pre ++ c!"/" ++ o.root ++ c!".sources"
        · rw [if_pos h2] at hfx ⊢
          exact key _ h1 hfx
        · rw [if_neg h2] at hfx ⊢
          by_cases h3 : x = o.pre ++ c!"/" ++ o.root ++ c!".modules"
          · rw [if_pos h3] at hfx ⊢
            exact key _ h1 hfx
          · rw [if_neg h3]
  · obtain ⟨l, e, hl⟩ := finishRun_writes (o := o) U.E.cfg bs files g2
    refine ⟨rootPath o :: l, by rw [e, wrg2, wrg1]; simp, ?_⟩
    intro x hx
    rcases List.mem_cons.1 hx with rfl | hx
    · exact .inl rfl
    · exact .inr (hl x hx)

/-! ## A run that fails while writing -/

theorem updateUntil_frame {pre : Str} {fs fs' : FS} {l : List (Str × Str)} (h : updateUntil pre fs l = .inl fs') :
    ∀ x, (∀ p ∈ l, x ≠ pre ++ c!"/" ++ p.1) → fs'.files x = fs.files x := by
  induction l generalizing fs with
  | nil => cases h
  | cons p l ih =>
    obtain ⟨n, t⟩ := p
    rw [updateUntil] at h
    intro x hx
    cases hu : updateSourceFile fs pre n t with
    | none => rw [hu] at h; cases h; rfl
    | some fs1 =>
      rw [hu] at h
      rw [ih h x fun p hp => hx p (List.mem_cons_of_mem _ hp)]
      exact (updateSourceFile_some hu).frame x (hx _ List.mem_cons_self)

end Done

end Binder
