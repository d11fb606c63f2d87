import Verif.Spec.Extended
import Verif.Props.RunOrder
import Verif.Props.Surface

/-!
# C88: including another header loses nothing
-/

namespace Binder

open Spec Cxx

section
variable {U V : TransUnit} (h : Extended U V)
include h

theorem Spec.Extended.E : V.E = U.E.withInsertions V.E.insertions := by
  rw [TransUnit.E, TransUnit.E, h.env]; rfl

theorem Spec.Extended.insertions : U.E.insertions ⊆ V.E.insertions := by
  show U.visits.filterMap (visitInsertion U.env) ⊆ V.visits.filterMap (visitInsertion V.env)
  rw [h.env]
  intro F hF
  obtain ⟨v, hv, e⟩ := List.mem_filterMap.1 hF
  exact List.mem_filterMap.2 ⟨v, h.visits hv, e⟩

theorem Spec.Extended.ident (v : Visit) : identOf V.E v = identOf U.E v := by rw [h.E]; cases v <;> rfl
theorem Spec.Extended.namespace_ (v : Visit) : namespaceOf V.E v = namespaceOf U.E v := by rw [h.E]; cases v <;> rfl
theorem Spec.Extended.typeName (v : Visit) : typeNameOf V.E v = typeNameOf U.E v := by rw [h.E]; cases v <;> rfl
theorem Spec.Extended.skip (v : Visit) : skipQuery V.E v = skipQuery U.E v := by
  rw [h.E]; cases v <;> simp only [skipQuery, ins_skipFunction, ins_skipClass] <;> rfl
theorem Spec.Extended.bind (v : Visit) : bindQuery V.E v = bindQuery U.E v := by
  rw [h.E]; cases v <;> simp only [bindQuery, ins_bindFunctionAsked, ins_bindClass] <;> rfl
theorem Spec.Extended.requests (v : Visit) : requestsOf V.E v = requestsOf U.E v := by
  rw [h.E]; cases v <;> simp only [requestsOf, ins_bindFunctionRequests, ins_classRequests]
theorem Spec.Extended.canBind (v : Visit) : CanBind V.E v ↔ CanBind U.E v := by rw [h.E]; cases v <;> exact Iff.rfl
theorem Spec.Extended.converted (v : Visit) : Converted V.E v ↔ Converted U.E v := by rw [h.E]; cases v <;> exact Iff.rfl
theorem Spec.Extended.standalone (v : Visit) : Standalone V.E v ↔ Standalone U.E v := by
  rw [h.E]; cases v <;> simp only [Standalone, ins_functionBindable, ins_classBindable] <;> exact Iff.rfl

theorem Spec.Extended.allowed {v : Visit} (ha : Allowed U.E v) : Allowed V.E v :=
  ⟨(h.canBind v).2 ha.possible, (h.skip v).trans ha.notSkipped, fun hw => ha.notConverted ((h.converted v).1 hw)⟩

theorem Spec.Extended.considered (hc : Consistent V) {v : Visit} (hv : v ∈ considered U) :
    ∃ w ∈ Spec.considered V, identOf V.E w = identOf V.E v ∧ Alike V v w := by
  obtain ⟨h1, h2⟩ := considered_visit hv
  obtain ⟨w, hw, e⟩ := exists_considered (h.visits h1) ((h.standalone v).2 h2)
  obtain ⟨h3, h4⟩ := considered_visit hw
  exact ⟨w, hw, e, hc.redeclared v (h.visits h1) w h3 ((h.standalone v).2 h2) h4 e.symm⟩

end

/-- C88. If more declarations are added to a program, every declaration that was reached is still reached (perhaps through another declaration
of the same thing). -/
theorem C88_reached (U V : TransUnit) (h : Extended U V) (hc : Consistent V) (v : Visit) (hv : Reached U v) :
    ∃ w, Reached V w ∧ identOf V.E w = identOf U.E v ∧ Alike V v w := by
  induction hv with
  | @asked v h1 h2 h3 h4 =>
    obtain ⟨w, hw, e, ha⟩ := h.considered hc h1
    refine ⟨w, .asked hw (ha.allowed (h.allowed h2)) ?_ ?_, e.trans (h.ident v), ha⟩
    · rw [← ha.inSystem, h.inSystem, h3]
    · rw [← ha.asked, h.bind, h4]
  | @needed w v t h1 h2 h3 h4 ih =>
    obtain ⟨w', hw', -, haw⟩ := ih
    obtain ⟨a, b, e3, h5, -⟩ := h3
    have hv : v ∈ considered U := by rw [e3]; simp
    obtain ⟨v', hv', e, ha⟩ := h.considered hc hv
    have ht : typeNameOf V.E v' = some t := by rw [← ha.typeName, h.typeName, h5]
    refine ⟨v', .needed hw' (t := t) ?_ ?_ (ha.allowed (h.allowed h4)), e.trans (h.ident v), ha⟩
    · exact (haw.requests t).1 (by rw [h.requests]; exact h2)
    · obtain ⟨a', y, b', ec, hy, hb⟩ := exists_last (fun x => typeNameOf V.E x = some t) _ v' hv' ht
      have hyc : y ∈ considered V := by rw [ec]; simp
      obtain ⟨y1, y2⟩ := considered_visit hyc
      obtain ⟨v1, v2⟩ := considered_visit hv'
      have : y = v' := firstOfName_inj hyc hv' (hc.types y y1 v' v1 y2 v2 (hy.trans ht.symm) (by rw [hy]; nofun))
      subst this
      exact ⟨a', b', ec, ht, hb⟩

theorem Spec.Once.consistent {U : TransUnit} (h : Once U) (ht : OnceTypes U) : Consistent U where
  redeclared := by
    intro v hv w hw sv sw e
    rw [h v hv w hw sv sw e]
    exact ⟨rfl, rfl, Iff.rfl, rfl, rfl, Iff.rfl, rfl, fun _ => Iff.rfl⟩
  types := ht

theorem extended_same {U V : TransUnit} (h : Extended U V) (ho : Once V) (ht : OnceTypes V) {v : Visit} (hv : Reached U v) : Reached V v := by
  obtain ⟨w, hw, e, _⟩ := C88_reached U V h (ho.consistent ht) v hv
  obtain ⟨h1, h2⟩ := considered_visit hv.considered
  obtain ⟨h3, h4⟩ := considered_visit hw.considered
  rw [ho v (h.visits h1) w h3 ((h.standalone v).2 h2) h4 ((h.ident v).trans e.symm)]
  exact hw

/-! ## Calls of pybind11 -/

section
variable (E : Env) (l : List Func) (hl : E.insertions ⊆ l)
include hl

theorem more_insertion {key : Str} (h : (insertionOperator E key).isSome = true) : (insertionOperator (E.withInsertions l) key).isSome = true := by
  rw [insertionOperator, List.find?_isSome] at h ⊢
  obtain ⟨F, hF, e⟩ := h
  exact ⟨F, by rw [List.mem_reverse] at hF ⊢; exact hl hF, e⟩

theorem more_globalInsertion {i : Nat} (h : (globalInsertion E i).isSome = true) : (globalInsertion (E.withInsertions l) i).isSome = true := by
  rw [globalInsertion] at h ⊢
  have e1 : (E.withInsertions l).cls = E.cls := rfl
  have e2 : classQualifiedName (E.withInsertions l) = classQualifiedName E := rfl
  have e3 : templateInsertionKey (E.withInsertions l) = templateInsertionKey E := rfl
  rw [e1, e2, e3]
  generalize "std::ostream & (*)(std::ostream &, const ".toList ++ (if (E.cls i).isStruct then c!"struct " else c!"class ") ++
      classQualifiedName E (E.cls i) ++ c!" &)" = key at h ⊢
  cases h1 : insertionOperator (E.withInsertions l) key with
  | some F => rfl
  | none =>
    have h2 : insertionOperator E key = none := by
      cases h3 : insertionOperator E key with
      | none => rfl
      | some F =>
        have := more_insertion E l hl (key := key) (by rw [h3]; rfl)
        rw [h1] at this; cases this
    rw [h2] at h
    cases ha : (E.cls i).targs with
    | none => rw [ha] at h; cases h
    | some args =>
      rw [ha] at h
      exact more_insertion E l hl h

theorem more_classItems {i : Nat} {s : Scope} {op : Op} (h : op ∈ (classItems E i).flatMap (itemOps E i s)) :
    op ∈ (classItems (E.withInsertions l) i).flatMap (itemOps (E.withInsertions l) i s) := by
  have eo : ∀ t, itemOps (E.withInsertions l) i s t = itemOps E i s t := by
    intro t
    cases t with
    | copyCtor t => rw [itemOps, itemOps, ins_trampoline]; rfl
    | _ => rfl
  rw [show itemOps (E.withInsertions l) i s = itemOps E i s from funext eo]
  unfold classItems at h ⊢
  rw [ins_ctorItems, ins_dataMembers, ins_memberFunctions, ins_templateBases]
  simp only [List.flatMap_append, List.mem_append] at h ⊢
  have hr : op ∈ (reprItems E i).flatMap (itemOps E i s) → op ∈ (reprItems (E.withInsertions l) i).flatMap (itemOps E i s) := by
    intro h
    rw [reprItems] at h ⊢
    have e2 : classQualifiedName (E.withInsertions l) = classQualifiedName E := rfl
    have e1 : (E.withInsertions l).cls = E.cls := rfl
    have e3 : stdName (E.withInsertions l) = stdName E := rfl
    have e4 : (E.withInsertions l).cfg = E.cfg := rfl
    rw [e1, e2, e3, e4]
    split at h
    · cases h
    · rename_i hn
      rw [if_neg hn]
      cases h1 : globalInsertion E i with
      | none => rw [h1] at h; cases h
      | some F =>
        rw [h1] at h
        have := more_globalInsertion E l hl (i := i) (by rw [h1]; rfl)
        cases h2 : globalInsertion (E.withInsertions l) i with
        | none => rw [h2] at this; cases this
        | some G => exact h
  exact h.imp (fun h => h.imp id hr) id

theorem more_classOpsF (n : Nat) (s : Scope) (i : Nat) (op : Op) (h : op ∈ classOpsF E n s i) : op ∈ classOpsF (E.withInsertions l) n s i := by
  induction n generalizing s i with
  | zero => cases h
  | succ n ih =>
    rw [classOpsF] at h ⊢
    have e1 : (E.withInsertions l).cls = E.cls := rfl
    have e2 : classQualifiedName (E.withInsertions l) = classQualifiedName E := rfl
    have e3 : stdName (E.withInsertions l) = stdName E := rfl
    have e4 : (E.withInsertions l).cfg = E.cfg := rfl
    have e5 : pythonClassName (E.withInsertions l) = pythonClassName E := rfl
    rw [e1, e2, e3, e4, e5, ins_builtinDecl, ins_nsOf, ins_boundBases, ins_nestedBound]
    split
    · rename_i hb; rw [if_pos hb] at h; cases h
    · rename_i hb
      rw [if_neg hb] at h
      split
      · rename_i hx; rw [if_pos hx] at h; exact h
      · rename_i hx
        rw [if_neg hx, List.mem_append, List.mem_append] at h
        simp only [List.mem_append]
        rcases h with (h | h) | h
        · exact .inl (.inl h)
        · exact .inl (.inr (more_classItems E l hl h))
        · obtain ⟨j, hj, h⟩ := List.mem_flatMap.1 h
          exact .inr (List.mem_flatMap.2 ⟨j, hj, ih _ j h⟩)

theorem more_opsOf (v : Visit) (op : Op) (h : op ∈ opsOf E v) : op ∈ opsOf (E.withInsertions l) v := by
  cases v with
  | fn F => exact h
  | cls i => exact more_classOpsF E l hl _ _ i op h
  | enm i => exact h

end


theorem ins_registersF (E : Env) (l : List Func) (n i : Nat) : registersF (E.withInsertions l) n i = registersF E n i := by
  induction n generalizing i with
  | zero => rfl
  | succ n ih =>
    rw [registersF, registersF, show registersF (E.withInsertions l) n = registersF E n from funext ih, ins_nestedBound]
    rfl

section
variable {U V : TransUnit} (h : Extended U V)
include h

theorem extended_made (hr : ∀ v, Reached U v → Reached V v) {op : Op} (hm : Made U op) : Made V op := by
  obtain ⟨v, hv, hb, hop⟩ := hm
  refine ⟨v, hr v hv, ?_, ?_⟩
  · rw [h.namespace_, h.E]; exact hb
  · rw [h.E]; exact more_opsOf U.E _ h.insertions v op hop

theorem extended_hasClass (hr : ∀ v, Reached U v → Reached V v) {i : Nat} (hc : HasClass U i) : HasClass V i := by
  obtain ⟨⟨v, hv, hb, hi⟩, h2⟩ := hc
  refine ⟨⟨v, hr v hv, ?_, ?_⟩, ?_⟩
  · rw [h.namespace_, h.E]; exact hb
  · rw [h.E]
    cases v with
    | cls j =>
      show i ∈ registersF (U.E.withInsertions _) (U.E.nestRank j + 1) j
      rw [ins_registersF]
      exact hi
    | fn F => exact hi
    | enm j => exact hi
  · rw [h.E]; exact h2

theorem extended_derives (hr : ∀ v, Reached U v → Reached V v) {q r : Str} (hd : Derives U (ListedBase U.E) q r) : Derives V (ListedBase V.E) q r := by
  induction hd with
  | refl q => exact .refl q
  | @step i j r hi hj _ ih =>
    have hj' : ListedBase V.E i j := by
      rw [← mem_boundBases, h.E, ins_boundBases]
      exact (mem_boundBases U.E i j).2 hj
    have e : ∀ k, classQualifiedName V.E (V.E.cls k) = classQualifiedName U.E (U.E.cls k) := fun k => by rw [h.E]; rfl
    have := Derives.step (extended_hasClass h hr hi) hj' (by rw [e]; exact ih)
    rw [e] at this
    exact this

end

/-- C88. Two runs that return, the second for a program with more declarations, of which no two have the same name, and with the same
configuration (and whatever options for the output): the sources of the second bind all that those of the first bind. If the two modules can
be imported, the second has all names of the first, in the same modules and classes, the same modules for namespaces, and a class that is a
subclass of another one in the first is so in the second. -/
theorem C88_module (U V : TransUnit) (hext : Extended U V) (hone : Once V) (htypes : OnceTypes V) (o o' : Opts) (fs fs' gs gs' : FS)
    (hw : fs.WF) (hw' : gs.WF) (hn : V.visits.length + 1 < 2 ^ 32) (hnU : U.visits.length + 1 < 2 ^ 32) (hd : DistinctNames U o)
    (hd' : DistinctNames V o') (h : U.Ends o fs (.done fs')) (h' : V.Ends o' gs (.done gs')) :
    ∃ srcs srcs' root root' pairs pairs', Generated U o fs fs' srcs ∧ Generated V o' gs gs' srcs' ∧
      fs'.files (rootPath o) = some root ∧ gs'.files (rootPath o') = some root' ∧ MakesModules root pairs ∧ MakesModules root' pairs' ∧
      (∀ v ∈ srcs.flatMap Source.bound, v ∈ srcs'.flatMap Source.bound) ∧
      ∀ p p', importModule pairs (importOps U.E srcs) = some p → importModule pairs' (importOps V.E srcs') = some p' →
        (∀ s n, (p.own s n).isSome = true → (p'.own s n).isSome = true) ∧ (∀ n ∈ p.modules, n ∈ p'.modules) ∧
        ∀ q r, p.isSubclass q r → p'.isSubclass q r := by
  have hr := fun v (hv : Reached U v) => extended_same hext hone htypes hv
  obtain ⟨st, bs, files, fs1, fs2, h⟩ := ends_done h
  obtain ⟨st', bs', files', gs1, gs2, h'⟩ := ends_done h'
  have hroot := (congrArg (fun x : FS => x.files (rootPath o)) h.finish).trans (by rw [finishRun_root])
  have hroot' := (congrArg (fun x : FS => x.files (rootPath o')) h'.finish).trans (by rw [finishRun_root])
  have hg := generated_of_done h hw hnU hd
  have hg' := generated_of_done h' hw' hn hd'
  have hpairs : subModules (allNestedNamespaces bs) ⊆ subModules (allNestedNamespaces bs') := by
    refine List.map_subset _ (List.filter_subset _ ?_)
    intro n hn1
    obtain ⟨b, hb, hc, ha⟩ := mem_allNested.1 hn1
    have hv := hr _ (h.reached hb hc)
    obtain ⟨b', hb', e⟩ := h'.item_of hv.considered
    have hvb := h'.visitOf hb'
    have e' : visitOf V b' = visitOf U b := considered_inj hvb.1 hv.considered (hvb.2.1.symm.trans e)
    have ens : b'.decl.ns = b.decl.ns := by
      rw [e, (h.visitOf hb).2.1, decl_ns, decl_ns, hext.namespace_]
    refine mem_allNested.2 ⟨b', hb', ?_, by rw [ens]; exact ha⟩
    rw [e'] at hvb
    rw [hvb.2.2.1 hv]
    exact bindingOf_ne_nil hv
  refine ⟨_, _, _, _, subModules (allNestedNamespaces bs), subModules (allNestedNamespaces bs'), hg, hg', hroot, hroot',
    (makesModules_root U.E.cfg o (allNestedNamespaces bs) files).right _, (makesModules_root _ o' (allNestedNamespaces bs') files').right _, ?_, ?_⟩
  · intro v hv
    obtain ⟨h1, h2⟩ := (hg.exactly v).1 hv
    refine (hg'.exactly v).2 ⟨hr v h1, ?_⟩
    rw [hext.namespace_, hext.E]
    exact h2
  · intro p p' hp hp'
    refine ⟨?_, ?_, ?_⟩
    · intro s n hs
      rcases (C84_names U o fs fs' _ hg _ p hp s n).1.1 hs with ⟨op, kind, hm, hk⟩ | ⟨x, hx, hx'⟩
      · exact (C84_names V o' gs gs' _ hg' _ p' hp' s n).1.2 (.inl ⟨op, kind, extended_made hext hr hm, hk⟩)
      · exact (C84_names V o' gs gs' _ hg' _ p' hp' s n).1.2 (.inr ⟨x, hpairs hx, hx'⟩)
    · obtain ⟨p0, h0, h1⟩ := importModule_some hp
      obtain ⟨p0', h0', h1'⟩ := importModule_some hp'
      obtain ⟨_, hm, _⟩ := makeModules_state h0
      obtain ⟨_, hm', _⟩ := makeModules_state h0'
      intro n hn'
      rw [show p.modules = p0.modules from execAll_modules _ h1, hm] at hn'
      rw [show p'.modules = p0'.modules from execAll_modules _ h1', hm']
      exact hn'.imp id fun ⟨x, hx, e⟩ => ⟨x, hpairs hx, e⟩
    · intro q r hqr
      rw [C84_subclass _ _ _ _ _ hg _ _ hp] at hqr
      rw [C84_subclass _ _ _ _ _ hg' _ _ hp']
      exact extended_derives hext hr hqr

/-! ## An example -/

/-- The example program without `n::f`; then `m::S`, which only that function needs, is not bound. -/
def Ex.without : TransUnit := { Ex.unit with visits := [.cls 0, .cls 1, .cls 2, .cls 3] }

/-- The hypotheses of the theorems are met; more is bound for the extended program. -/
example : Extended Ex.without Ex.unit ∧ Once Ex.unit ∧ OnceTypes Ex.unit ∧
    (∃ fs', Ex.without.Ends (Ex.opts 1000) Ex.fsEmpty (.done fs') ∧
      (fs'.files c!"out/m.cpp").all (fun t => (Str.rfind c!"cl(M(\"m\"), \"S\"" t).isNone) = true) ∧
    (∃ fs', Ex.unit.Ends (Ex.opts 1000) Ex.fsEmpty (.done fs') ∧
      (fs'.files c!"out/m.cpp").any (fun t => (Str.rfind c!"cl(M(\"m\"), \"S\"" t).isSome) = true) := by
  refine ⟨⟨rfl, rfl, ?_⟩, ?_, ?_, Ex.ends_after (n := 20) (by decide +kernel), Ex.ends_after (n := 20) (by decide +kernel)⟩
  · intro v hv
    simp only [Ex.without, Ex.unit, List.mem_cons, List.not_mem_nil, or_false] at hv ⊢
    rcases hv with rfl | rfl | rfl | rfl <;> simp
  · intro v hv w hw _ _
    simp only [Ex.unit, List.mem_cons, List.not_mem_nil, or_false] at hv hw
    rcases hv with rfl | rfl | rfl | rfl | rfl <;> rcases hw with rfl | rfl | rfl | rfl | rfl <;>
      first | exact fun _ => rfl | (intro h; exact absurd h (by decide +kernel))
  · intro v hv w hw _ _ e hne
    simp only [Ex.unit, List.mem_cons, List.not_mem_nil, or_false] at hv hw
    rcases hv with rfl | rfl | rfl | rfl | rfl <;> rcases hw with rfl | rfl | rfl | rfl | rfl <;>
      first | rfl | exact absurd rfl hne | exact absurd e (by decide +kernel)

end Binder
