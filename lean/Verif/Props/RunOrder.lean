import Verif.Spec.RunOrder
import Verif.Props.Run
import Verif.Lemmas.Insertions

/-!
# C79: the order of the declarations does not matter
-/

namespace Binder

open Spec Cxx

section
variable {U V : TransUnit} (h : Reordered U V)
include h

theorem Spec.Reordered.E : V.E = U.E.withInsertions V.E.insertions := by
  rw [TransUnit.E, TransUnit.E, h.env]; rfl

theorem Spec.Reordered.ident (v : Visit) : identOf V.E v = identOf U.E v := by rw [h.E]; cases v <;> rfl
theorem Spec.Reordered.namespace_ (v : Visit) : namespaceOf V.E v = namespaceOf U.E v := by rw [h.E]; cases v <;> rfl
theorem Spec.Reordered.typeName (v : Visit) : typeNameOf V.E v = typeNameOf U.E v := by rw [h.E]; cases v <;> rfl
theorem Spec.Reordered.skip (v : Visit) : skipQuery V.E v = skipQuery U.E v := by
  rw [h.E]; cases v <;> simp only [skipQuery, ins_skipFunction, ins_skipClass] <;> rfl
theorem Spec.Reordered.bind (v : Visit) : bindQuery V.E v = bindQuery U.E v := by
  rw [h.E]; cases v <;> simp only [bindQuery, ins_bindFunctionAsked, ins_bindClass] <;> rfl
theorem Spec.Reordered.requests (v : Visit) : requestsOf V.E v = requestsOf U.E v := by
  rw [h.E]; cases v <;> simp only [requestsOf, ins_bindFunctionRequests, ins_classRequests]
theorem Spec.Reordered.canBind (v : Visit) : CanBind V.E v ↔ CanBind U.E v := by rw [h.E]; cases v <;> exact Iff.rfl
theorem Spec.Reordered.converted (v : Visit) : Converted V.E v ↔ Converted U.E v := by rw [h.E]; cases v <;> exact Iff.rfl
theorem Spec.Reordered.standalone (v : Visit) : Standalone V.E v ↔ Standalone U.E v := by
  rw [h.E]; cases v <;> simp only [Standalone, ins_functionBindable, ins_classBindable] <;> exact Iff.rfl

theorem Spec.Reordered.symm : Reordered V U := ⟨h.env.symm, h.inSystem.symm, fun v => (h.visits v).symm⟩

theorem Spec.Reordered.alike {v w : Visit} (ha : Alike U v w) : Alike V v w where
  inSystem := by rw [h.inSystem]; exact ha.inSystem
  namespace_ := by rw [h.namespace_, h.namespace_]; exact ha.namespace_
  possible := by rw [h.canBind, h.canBind]; exact ha.possible
  skipped := by rw [h.skip, h.skip]; exact ha.skipped
  asked := by rw [h.bind, h.bind]; exact ha.asked
  converted := by rw [h.converted, h.converted]; exact ha.converted
  typeName := by rw [h.typeName, h.typeName]; exact ha.typeName
  requests := by intro t; rw [h.requests, h.requests]; exact ha.requests t

theorem Spec.Reordered.consistent (hc : Consistent U) : Consistent V where
  redeclared := by
    intro v hv w hw
    rw [h.standalone, h.standalone, h.ident, h.ident]
    intro a b c
    exact h.alike (hc.redeclared v ((h.visits v).1 hv) w ((h.visits w).1 hw) a b c)
  types := by
    intro v hv w hw
    rw [h.standalone, h.standalone, h.ident, h.ident, h.typeName, h.typeName]
    exact hc.types v ((h.visits v).1 hv) w ((h.visits w).1 hw)

end

theorem exists_firstOfName {E : Env} {vs : List Visit} {v : Visit} (h : v ∈ vs) : ∃ w ∈ firstOfName E vs, identOf E w = identOf E v := by
  induction vs with
  | nil => cases h
  | cons x vs ih =>
    rcases List.mem_cons.1 h with rfl | h
    · exact ⟨_, List.mem_cons_self, rfl⟩
    · obtain ⟨w, hw, e⟩ := ih h
      by_cases hx : identOf E w = identOf E x
      · exact ⟨x, List.mem_cons_self, hx.symm.trans e⟩
      · exact ⟨w, List.mem_cons_of_mem _ (List.mem_filter.2 ⟨hw, decide_eq_true hx⟩), e⟩

theorem considered_visit {U : TransUnit} {v : Visit} (h : v ∈ considered U) : v ∈ U.visits ∧ Standalone U.E v :=
  ⟨(considered_offered h).1, (offered_iff U v).1 (considered_offered h).2⟩

theorem exists_considered {U : TransUnit} {v : Visit} (h : v ∈ U.visits) (hs : Standalone U.E v) :
    ∃ w ∈ considered U, identOf U.E w = identOf U.E v := by
  rw [considered_eq]
  exact exists_firstOfName (List.mem_filter.2 ⟨h, (offered_iff U v).2 hs⟩)

theorem exists_last {α : Type} (p : α → Prop) : ∀ (l : List α) (x : α), x ∈ l → p x → ∃ a y b, l = a ++ y :: b ∧ p y ∧ ∀ z ∈ b, ¬ p z
  | [], x, h, _ => by cases h
  | y :: l, x, h, hx => by
    by_cases hl : ∃ z ∈ l, p z
    · obtain ⟨z, hz, hp⟩ := hl
      obtain ⟨a, w, b, e, h1, h2⟩ := exists_last p l z hz hp
      exact ⟨y :: a, w, b, by rw [e]; rfl, h1, h2⟩
    · rcases List.mem_cons.1 h with rfl | h
      · exact ⟨[], x, l, rfl, hx, fun z hz hp => hl ⟨z, hz, hp⟩⟩
      · exact absurd ⟨x, h, hx⟩ hl

theorem Spec.Alike.allowed {U : TransUnit} {v w : Visit} (h : Alike U v w) (ha : Allowed U.E v) : Allowed U.E w :=
  ⟨h.possible.1 ha.possible, h.skipped ▸ ha.notSkipped, fun hw => ha.notConverted (h.converted.2 hw)⟩

theorem Spec.Reordered.allowed {U V : TransUnit} (h : Reordered U V) {v : Visit} (ha : Allowed U.E v) : Allowed V.E v :=
  ⟨(h.canBind v).2 ha.possible, (h.skip v).trans ha.notSkipped, fun hw => ha.notConverted ((h.converted v).1 hw)⟩

/-- The declaration of the same name that is considered in the other order. -/
theorem other_considered {U V : TransUnit} (h : Reordered U V) (hc : Consistent U) {v : Visit} (hv : v ∈ considered U) :
    ∃ w ∈ considered V, identOf U.E w = identOf U.E v ∧ Alike U v w := by
  obtain ⟨h1, h2⟩ := considered_visit hv
  obtain ⟨w, hw, e⟩ := exists_considered ((h.visits v).2 h1) ((h.standalone v).2 h2)
  obtain ⟨h3, h4⟩ := considered_visit hw
  rw [h.ident, h.ident] at e
  exact ⟨w, hw, e, hc.redeclared v h1 w ((h.visits w).1 h3) h2 ((h.standalone w).1 h4) e.symm⟩

theorem reached_transfer {U V : TransUnit} (h : Reordered U V) (hc : Consistent U) {v : Visit} (hv : Reached U v) :
    ∃ w, Reached V w ∧ identOf U.E w = identOf U.E v ∧ Alike U v w := by
  have hcV := h.consistent hc
  induction hv with
  | @asked v h1 h2 h3 h4 =>
    obtain ⟨w, hw, e, ha⟩ := other_considered h hc h1
    refine ⟨w, .asked hw (h.allowed (ha.allowed h2)) ?_ ?_, e, ha⟩
    · rw [h.inSystem, ← ha.inSystem, h3]
    · rw [h.bind, ← ha.asked, h4]
  | @needed w v t h1 h2 h3 h4 ih =>
    obtain ⟨w', hw', -, haw⟩ := ih
    obtain ⟨a, b, e3, h5, -⟩ := h3
    have hv : v ∈ considered U := by rw [e3]; simp
    obtain ⟨v', hv', e, ha⟩ := other_considered h hc hv
    have ht : typeNameOf V.E v' = some t := by rw [h.typeName, ← ha.typeName, h5]
    refine ⟨v', .needed hw' (t := t) ?_ ?_ (h.allowed (ha.allowed h4)), e, ha⟩
    · rw [h.requests]; exact (haw.requests t).1 h2
    · obtain ⟨a', y, b', ec, hy, hb⟩ := exists_last (fun x => typeNameOf V.E x = some t) _ v' hv' ht
      have hyc : y ∈ considered V := by rw [ec]; simp
      obtain ⟨y1, y2⟩ := considered_visit hyc
      obtain ⟨v1, v2⟩ := considered_visit hv'
      have : y = v' := firstOfName_inj hyc hv' (hcV.types y y1 v' v1 y2 v2 (hy.trans ht.symm) (by rw [hy]; nofun))
      subst this
      exact ⟨a', b', ec, ht, hb⟩

theorem Spec.Alike.symm {U : TransUnit} {v w : Visit} (h : Alike U v w) : Alike U w v :=
  ⟨h.inSystem.symm, h.namespace_.symm, h.possible.symm, h.skipped.symm, h.asked.symm, h.converted.symm, h.typeName.symm, fun t => (h.requests t).symm⟩

theorem conflictIn_iff (U : TransUnit) (seen : List Str) (vs : List Visit) : U.conflictIn seen vs = true ↔
    ∃ v ∈ firstOfName U.E vs, identOf U.E v ∉ seen ∧ (U.decl v).canBind = true ∧ U.conflict v = true := by
  induction vs generalizing seen with
  | nil => simp [TransUnit.conflictIn, firstOfName]
  | cons x vs ih =>
    rw [TransUnit.conflictIn, firstOfName]
    simp only [List.contains_eq_mem, List.mem_cons, List.mem_filter, decide_eq_true_eq, decl_ident]
    split
    · rename_i hs
      rw [ih]
      constructor
      · rintro ⟨v, hv, h⟩
        exact ⟨v, .inr ⟨hv, fun e => h.1 (e ▸ hs)⟩, h⟩
      · rintro ⟨v, rfl | hv, h⟩
        · exact absurd hs h.1
        · exact ⟨v, hv.1, h⟩
    · rename_i hs
      rw [Bool.or_eq_true, Bool.and_eq_true, ih]
      constructor
      · rintro (h | ⟨v, hv, h⟩)
        · exact ⟨x, .inl rfl, hs, h⟩
        · simp only [List.mem_cons, not_or] at h
          exact ⟨v, .inr ⟨hv, h.1.1⟩, h.1.2, h.2⟩
      · rintro ⟨v, rfl | hv, h⟩
        · exact .inl h.2
        · refine .inr ⟨v, hv.1, ?_, h.2⟩
          simp only [List.mem_cons, not_or]
          exact ⟨hv.2, h.1⟩

theorem conflict_transfer {U V : TransUnit} (h : Reordered U V) (hc : Consistent U)
    (hu : U.conflictIn [] (U.visits.filter U.offered) = true) : V.conflictIn [] (V.visits.filter V.offered) = true := by
  rw [conflictIn_iff, ← considered_eq] at hu ⊢
  obtain ⟨v, hv, -, h1, h2⟩ := hu
  obtain ⟨w, hw, e, ha⟩ := other_considered h hc hv
  refine ⟨w, hw, by simp, ?_, ?_⟩
  · rw [decl_canBind V w (considered_offered hw).2, h.canBind, ← ha.possible, ← decl_canBind U v (considered_offered hv).2]
    exact h1
  · rw [TransUnit.conflict, h.skip, h.bind, h.inSystem, ← ha.skipped, ← ha.asked, ← ha.inSystem]
    exact h2

/-- C79. A run binds the same declarations, whatever the order in which clang comes to the declarations of the program, and it stops because
of contradictory requests in every order or in none. Of several declarations of the same thing another one may be used. -/
theorem C79_order_independent (U V : TransUnit) (h : Reordered U V) (hc : Consistent U) (o : Opts) (fs : FS) (hw : fs.WF)
    (hnU : U.visits.length + 1 < 2 ^ 32) (hnV : V.visits.length + 1 < 2 ^ 32) (hdU : DistinctNames U o) (hdV : DistinctNames V o) :
    (∀ fsU fsV, U.Ends o fs (.done fsU) → V.Ends o fs (.done fsV) → ∃ srcsU srcsV, Generated U o fs fsU srcsU ∧ Generated V o fs fsV srcsV ∧
      ∀ name, (∃ v ∈ srcsU.flatMap Source.bound, identOf U.E v = name) ↔ (∃ v ∈ srcsV.flatMap Source.bound, identOf V.E v = name)) ∧
    (U.conflictIn [] (U.visits.filter U.offered) = V.conflictIn [] (V.visits.filter V.offered)) := by
  have hcV := h.consistent hc
  constructor
  · intro fsU fsV eU eV
    obtain ⟨srcsU, gU⟩ := C69_exactly_once U o fs fsU hw hnU hdU eU
    obtain ⟨srcsV, gV⟩ := C69_exactly_once V o fs fsV hw hnV hdV eV
    refine ⟨srcsU, srcsV, gU, gV, fun name => ?_⟩
    constructor
    · rintro ⟨v, hv, e⟩
      obtain ⟨h1, h2⟩ := (gU.exactly v).1 hv
      obtain ⟨w, hw, ew, ha⟩ := reached_transfer h hc h1
      refine ⟨w, (gV.exactly w).2 ⟨hw, ?_⟩, by rw [h.ident, ew, e]⟩
      rw [h.namespace_, ← ha.namespace_, h.E]
      exact h2
    · rintro ⟨v, hv, e⟩
      obtain ⟨h1, h2⟩ := (gV.exactly v).1 hv
      obtain ⟨w, hw, ew, ha⟩ := reached_transfer h.symm hcV h1
      refine ⟨w, (gU.exactly w).2 ⟨hw, ?_⟩, by rw [h.symm.ident, ew, e]⟩
      rw [h.symm.namespace_, ← ha.namespace_, h.symm.E]
      exact h2
  · rw [Bool.eq_iff_iff]
    exact ⟨conflict_transfer h hc, conflict_transfer h.symm hcV⟩

/-- The example program with the declarations in the opposite order, and one of them twice. -/
def Ex.unitReversed : TransUnit := { Ex.unit with visits := [.fn Ex.fun_f, .cls 3, .cls 2, .cls 1, .cls 0, .cls 2] }

/-- The hypotheses of `C79_order_independent` are met: both orders are orders of the same program, which is consistent. -/
example : Reordered Ex.unit Ex.unitReversed ∧ Consistent Ex.unit := by
  refine ⟨⟨rfl, rfl, ?_⟩, ?_⟩
  · intro v
    simp only [Ex.unitReversed, Ex.unit, List.mem_cons, List.not_mem_nil, or_false]
    constructor <;> rintro (rfl | rfl | rfl | rfl | rfl | rfl) <;> simp
  · have hid : ∀ v ∈ Ex.unit.visits, ∀ w ∈ Ex.unit.visits, identOf Ex.unit.E v = identOf Ex.unit.E w → v = w := by
      intro v hv w hw
      simp only [Ex.unit, List.mem_cons, List.not_mem_nil, or_false] at hv hw
      rcases hv with rfl | rfl | rfl | rfl | rfl <;> rcases hw with rfl | rfl | rfl | rfl | rfl <;>
        first | exact fun _ => rfl | (intro h; exact absurd h (by decide +kernel))
    constructor
    · intro v hv w hw _ _ e
      rw [hid v hv w hw e]
      exact ⟨rfl, rfl, Iff.rfl, rfl, rfl, Iff.rfl, rfl, fun _ => Iff.rfl⟩
    · intro v hv w hw _ _ e hne
      simp only [Ex.unit, List.mem_cons, List.not_mem_nil, or_false] at hv hw
      rcases hv with rfl | rfl | rfl | rfl | rfl <;> rcases hw with rfl | rfl | rfl | rfl | rfl <;>
        first | rfl | exact absurd rfl hne | exact absurd e (by decide +kernel)

end Binder
