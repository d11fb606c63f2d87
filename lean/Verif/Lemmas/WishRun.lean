import Verif.Lemmas.Wishes

/-! Wishes: what is bound. -/

namespace Binder

open Spec Cxx

theorem iteSome {α : Type} {c : Prop} [Decidable c] {x y : α} : (if c then some x else none) = some y ↔ c ∧ x = y := by
  split <;> simp_all

theorem wish_answer {a b : Except QueryError Bool} (hab : a = .ok false → b = .ok false) (ha : (!answer a) = true) : (!answer b) = true := by
  rw [Bool.not_eq_true', answer_false] at ha ⊢
  exact hab ha

theorem flatMap_subset {α β : Type} {f g : α → List β} {a b : List α} (hab : a ⊆ b) (hfg : ∀ x, f x ⊆ g x) : a.flatMap f ⊆ b.flatMap g := by
  intro y hy
  obtain ⟨x, hx, hy⟩ := List.mem_flatMap.1 hy
  exact List.mem_flatMap.2 ⟨x, hab hx, hfg x hy⟩

theorem append_subset {β : Type} {a b c d : List β} (h1 : a ⊆ c) (h2 : b ⊆ d) : a ++ b ⊆ c ++ d := by
  intro x hx
  rcases List.mem_append.1 hx with hx | hx
  · exact List.mem_append.2 (.inl (h1 hx))
  · exact List.mem_append.2 (.inr (h2 hx))

theorem filterMap_subset {α β : Type} {f g : α → Option β} {l : List α} (hfg : ∀ x y, f x = some y → g x = some y) : l.filterMap f ⊆ l.filterMap g := by
  intro y hy
  obtain ⟨x, hx, hy⟩ := List.mem_filterMap.1 hy
  exact List.mem_filterMap.2 ⟨x, hx, hfg x y hy⟩

section

variable {E : Env} {w : Wishes} (h : (wishesOf E.cfg).Le w)

include h

theorem wish_tyRequests (t : Ty) : tyRequests E t ⊆ tyRequests (wished E w) t := by
  have aux : ∀ {t : Ty} {a b : List Str}, a ⊆ b → (if answer (skipTy E t) then [] else a) ⊆ (if answer (skipTy (wished E w) t) then [] else b) := by
    intro t a b hab
    cases e : answer (skipTy E t) with
    | true => exact List.nil_subset _
    | false => rw [answer_false.2 (wish_skipTy h (answer_false.1 e))]; exact hab
  fun_induction tyRequests E t with
  | case1 t ih => exact ih
  | case2 => exact List.nil_subset _
  | case3 p hs ih => rw [tyRequests, answer_false.2 (wish_skipTy h (answer_false.1 (Bool.not_eq_true _ ▸ hs)))]; exact ih
  | case4 => exact List.nil_subset _
  | case5 p hs ih => rw [tyRequests, answer_false.2 (wish_skipTy h (answer_false.1 (Bool.not_eq_true _ ▸ hs)))]; exact ih
  | case6 => exact List.nil_subset _
  | case7 p hs ih => rw [tyRequests, answer_false.2 (wish_skipTy h (answer_false.1 (Bool.not_eq_true _ ▸ hs)))]; exact ih
  | case8 => exact List.nil_subset _
  | case9 t h1 h2 h3 h4 hs =>
    rw [tyRequests, answer_false.2 (wish_skipTy h (answer_false.1 (Bool.not_eq_true _ ▸ hs)))]
    · exact List.Subset.refl _
    all_goals assumption

theorem wish_functionRequests (F : Func) : bindFunctionRequests E F ⊆ bindFunctionRequests (wished E w) F :=
  append_subset (wish_tyRequests h _) (flatMap_subset (List.Subset.refl _) fun p => wish_tyRequests h p.ty)

theorem wish_memberWanted {m : Func} (hm : memberWanted E m = true) : memberWanted (wished E w) m = true := by
  simp only [memberWanted, wish_functionBindable, Bool.and_eq_true] at hm ⊢
  exact ⟨⟨⟨⟨hm.1.1.1.1, wish_answer (wish_skipFunction h) hm.1.1.1.2⟩, hm.1.1.2⟩, hm.1.2⟩, hm.2⟩

theorem wish_memberFunctions (i : Nat) : memberFunctions E i ⊆ memberFunctions (wished E w) i := by
  have hw := @wish_memberWanted E w h
  refine append_subset (flatMap_subset (List.Subset.refl _) fun m => ?_) ?_
  · cases m with
    | «using» a targets =>
      rw [memberItems, memberItems]
      split
      · refine filterMap_subset fun x y hx => ?_
        cases x with
        | method m =>
          simp only [iteSome, Bool.and_eq_true] at hx ⊢
          exact ⟨⟨hx.1.1, hw hx.1.2⟩, hx.2⟩
        | field f => exact hx
        | other => exact hx
      · exact List.Subset.refl _
    | funcTemplate specs =>
      rw [memberItems, memberItems]
      refine filterMap_subset fun x y hx => ?_
      simp only [iteSome, Bool.and_eq_true] at hx ⊢
      exact ⟨⟨hx.1.1, hx.1.2.1, hw hx.1.2.2⟩, hx.2⟩
    | _ => exact List.Subset.refl _
  · refine List.map_subset _ ?_
    intro m hm
    rw [List.mem_filter, Bool.and_eq_true] at hm
    exact List.mem_filter.2 ⟨hm.1, Bool.and_eq_true_iff.2 ⟨hm.2.1, hw hm.2.2⟩⟩

theorem wish_dataMembers (i : Nat) : dataMembers E i ⊆ dataMembers (wished E w) i := by
  have hs : ∀ {x : Str}, (!fieldSkippingRequested E.cfg x) = true → (!fieldSkippingRequested (wished E w).cfg x) = true := by
    intro x hx
    rw [Bool.not_eq_true'] at hx ⊢
    exact wish_skipField h hx
  refine List.map_subset _ (append_subset (flatMap_subset (List.Subset.refl _) fun m => ?_) (filterMap_subset fun x y hx => ?_))
  · cases m with
    | «using» a targets =>
      dsimp only
      split
      · refine filterMap_subset fun x y hx => ?_
        cases x with
        | field f =>
          simp only [iteSome, Bool.and_eq_true, wish_fieldBindable] at hx ⊢
          exact ⟨⟨hs hx.1.1, hx.1.2⟩, hx.2⟩
        | method f => exact hx
        | other => exact hx
      · exact List.Subset.refl _
    | _ => exact List.Subset.refl _
  · cases x with
    | field f =>
      simp only [iteSome, Bool.and_eq_true, wish_fieldBindable] at hx ⊢
      exact ⟨⟨hs hx.1.1, hx.1.2⟩, hx.2⟩
    | _ => exact hx

theorem wish_templateBasesF (n i : Nat) : templateBasesF E n i ⊆ templateBasesF (wished E w) n i := by
  induction n generalizing i with
  | zero => exact List.Subset.refl _
  | succ n ih =>
    rw [templateBasesF, templateBasesF, wish_cls]
    split
    · refine flatMap_subset (List.Subset.refl _) fun b => ?_
      rw [templateBaseItems, templateBaseItems]
      split
      · cases b.record with
        | none => exact List.Subset.refl _
        | some j =>
          dsimp only
          cases e : answer (skipClass E j) with
          | true => exact List.nil_subset _
          | false =>
            rw [answer_false.2 (wish_skipClass h (answer_false.1 e))]
            exact append_subset (append_subset (wish_dataMembers h j) (wish_memberFunctions h j)) (ih j)
      · exact List.Subset.refl _
    · exact List.Subset.refl _

theorem wish_callbackNeededF (n i : Nat) : callbackNeededF (wished E w) n i = callbackNeededF E n i := by
  induction n generalizing i with
  | zero => rfl
  | succ n ih =>
    rw [callbackNeededF, callbackNeededF]
    simp only [wish_functionBindable, wish_isConstOverload, show callbackNeededF (wished E w) n = callbackNeededF E n from funext ih]
    rfl

theorem wish_callbackConstructibleF {n i : Nat} (hc : callbackConstructibleF E n i = true) : callbackConstructibleF (wished E w) n i = true := by
  induction n generalizing i with
  | zero => rfl
  | succ n ih =>
    rw [callbackConstructibleF] at hc ⊢
    simp only [Bool.or_eq_true, Bool.and_eq_true, wish_cls] at hc ⊢
    refine hc.imp id fun ⟨h1, h2⟩ => ⟨?_, ?_⟩
    · simp only [Bool.not_eq_true', List.any_eq_false, pureBlocked, wish_functionBindable] at h1 ⊢
      intro m hm hb
      refine h1 m hm ?_
      simp only [Bool.and_eq_true, Bool.or_eq_true] at hb ⊢
      refine ⟨hb.1, hb.2.imp id fun h' => ?_⟩
      cases e : answer (skipFunction E m) with
      | true => rfl
      | false => rw [answer_false.2 (wish_skipFunction h (answer_false.1 e))] at h'; cases h'
    · rw [List.all_eq_true] at h2 ⊢
      intro b hb
      have := h2 b hb
      unfold baseConstructible at this ⊢
      cases e : b.record with
      | none => rfl
      | some j =>
        rw [e] at this
        dsimp only at this ⊢
        split
        · rename_i ha; rw [if_pos ha] at this; exact ih this
        · rename_i ha; rw [if_neg ha] at this; exact this

theorem wish_trampoline {i : Nat} (ht : trampoline E i = true) : trampoline (wished E w) i = true := by
  simp only [trampoline, callbackNeeded, callbackConstructible, Bool.and_eq_true] at ht ⊢
  exact ⟨by rw [wish_callbackNeededF h]; exact ht.1, wish_callbackConstructibleF h ht.2⟩

theorem wish_baseDefaultsF (n i : Nat) : baseDefaultsF (wished E w) n i = baseDefaultsF E n i := by
  induction n generalizing i with
  | zero => rfl
  | succ n ih => rw [baseDefaultsF, baseDefaultsF, show baseDefaultsF (wished E w) n = baseDefaultsF E n from funext ih]; rfl

theorem wish_ctorItems (i : Nat) : ctorItems E i ⊆ ctorItems (wished E w) i := by
  have hbd : baseDefaults (wished E w) i = baseDefaults E i := wish_baseDefaultsF h _ i
  rw [ctorItems, ctorItems]
  cases ht : ((!(E.cls i).isAbstract || trampoline E i) && !(E.cls i).isAnonymous) with
  | false => exact List.nil_subset _
  | true =>
    have ht' : ((!((wished E w).cls i).isAbstract || trampoline (wished E w) i) && !((wished E w).cls i).isAnonymous) = true := by
      simp only [Bool.and_eq_true, Bool.or_eq_true] at ht ⊢
      exact ⟨ht.1.imp id (wish_trampoline h), ht.2⟩
    rw [ht', hbd]
    refine append_subset (append_subset (List.Subset.refl _) (List.map_subset _ ?_)) (List.map_subset _ ?_)
    · intro m hm
      simp only [List.mem_filter, Bool.and_eq_true, wish_functionBindable] at hm ⊢
      exact ⟨hm.1, hm.2.1, hm.2.2.1, wish_answer (wish_skipFunction h) hm.2.2.2⟩
    · simp only [wish_functionBindable]
      exact List.Subset.refl _

theorem wish_enumItems (C : Record) : enumItems E C ⊆ enumItems (wished E w) C := by
  refine filterMap_subset fun x y hx => ?_
  cases x with
  | enum e =>
    simp only [iteSome, Bool.and_eq_true] at hx ⊢
    exact ⟨⟨hx.1.1, wish_answer (wish_skipEnum h) hx.1.2⟩, hx.2⟩
  | _ => exact hx

theorem wish_reprItems (i : Nat) : reprItems E i ⊆ reprItems (wished E w) i := by
  rw [reprItems, reprItems]
  split
  · exact List.nil_subset _
  · rename_i hs
    rw [Bool.or_eq_true, not_or, Bool.not_eq_true, Bool.not_eq_true] at hs
    have : ¬ (functionSkippingRequested (wished E w).cfg (classQualifiedName (wished E w) ((wished E w).cls i) ++ c!"::__str__") ||
        functionSkippingRequested (wished E w).cfg (stdName (wished E w) (((wished E w).cls i).qname ++ c!"::__str__"))) = true := by
      rw [Bool.or_eq_true, not_or, Bool.not_eq_true, Bool.not_eq_true]
      exact ⟨wish_skipFn h hs.1, wish_skipFn h hs.2⟩
    rw [if_neg this]
    exact List.Subset.refl _

theorem wish_classItems (i : Nat) : classItems E i ⊆ classItems (wished E w) i := by
  unfold classItems
  exact append_subset (append_subset (append_subset (append_subset (append_subset (append_subset (wish_ctorItems h i) (wish_enumItems h _))
    (wish_dataMembers h i)) (wish_memberFunctions h i)) (wish_templateBasesF h _ i)) (wish_reprItems h i)) (List.Subset.refl _)

theorem wish_boundBases (C : Record) : boundBases E C ⊆ boundBases (wished E w) C := by
  refine filterMap_subset fun b y hx => ?_
  split at hx
  · rename_i ha
    rw [if_pos ha]
    cases e : b.record with
    | none => rw [e] at hx; exact hx
    | some j =>
      rw [e] at hx
      simp only [iteSome, Bool.and_eq_true, wish_classBindable] at hx ⊢
      exact ⟨⟨hx.1.1, wish_answer (wish_skipClass h) hx.1.2⟩, hx.2⟩
  · cases hx

theorem wish_itemRequests (t : Item) : itemRequests E t ⊆ itemRequests (wished E w) t := by
  cases t with
  | ctor t =>
    rw [itemRequests, itemRequests]
    split
    · exact List.Subset.refl _
    · exact flatMap_subset (List.Subset.refl _) fun p => wish_tyRequests h p.ty
  | method f _ _ => exact wish_functionRequests h f
  | _ => exact List.Subset.refl _

theorem wish_nestedBound (C : Record) : nestedBound (wished E w) C = nestedBound E C := by
  rw [nestedBound, nestedBound, wish_classBindable]; rfl

theorem wish_classRequests (n i : Nat) : (bindClassTextF E n i).requests ⊆ (bindClassTextF (wished E w) n i).requests := by
  induction n generalizing i with
  | zero => exact List.Subset.refl _
  | succ n ih =>
    rw [bindClassTextF, bindClassTextF]
    by_cases hb : builtinDecl E (E.cls i).qname = true
    · have hb' : builtinDecl (wished E w) ((wished E w).cls i).qname = true := hb
      rw [if_pos hb, if_pos hb']
      exact List.Subset.refl _
    · have hb' : ¬ builtinDecl (wished E w) ((wished E w).cls i).qname = true := hb
      rw [if_neg hb, if_neg hb']
      have e0 : (wished E w).cfg.binders (stdName (wished E w) ((wished E w).cls i).qname) = E.cfg.binders (stdName E (E.cls i).qname) := rfl
      rw [e0]
      cases E.cfg.binders (stdName E (E.cls i).qname) with
      | some b => exact List.Subset.refl _
      | none =>
        dsimp only
        refine append_subset (append_subset ?_ (flatMap_subset (wish_classItems h i) (wish_itemRequests h))) ?_
        · refine flatMap_subset ?_ fun j => wish_tyRequests h _
          rw [wish_cls]
          split
          · exact wish_boundBases h _
          · exact List.Subset.refl _
        · rw [List.flatMap_map, List.flatMap_map, wish_nestedBound h]
          exact flatMap_subset (List.Subset.refl _) ih

theorem wish_requestsOf (v : Visit) : requestsOf E v ⊆ requestsOf (wished E w) v := by
  cases v with
  | fn F => exact wish_functionRequests h F
  | cls i => exact wish_classRequests h _ i
  | enm i => exact List.Subset.refl _

/-! ## Calls of pybind11 -/

theorem wish_itemOps (i : Nat) (s : Scope) (t : Item) (op : Op) (hop : op ∈ itemOps E i s t) : op ∈ itemOps (wished E w) i s t := by
  cases t with
  | copyCtor t =>
    rw [itemOps] at hop ⊢
    rcases List.mem_cons.1 hop with rfl | hop
    · exact List.mem_cons_self
    · split at hop
      · rw [List.mem_singleton.1 hop]; exact List.mem_cons_self
      · cases hop
  | _ => exact hop

theorem wish_classOpsF (n : Nat) (s : Scope) (i : Nat) (op : Op) (hop : op ∈ classOpsF E n s i) :
    ∃ op' ∈ classOpsF (wished E w) n s i, op.binds ⊆ op'.binds := by
  induction n generalizing s i with
  | zero => cases hop
  | succ n ih =>
    rw [classOpsF] at hop ⊢
    by_cases hb : builtinDecl E (E.cls i).qname = true
    · rw [if_pos hb] at hop; cases hop
    · have hb' : ¬ builtinDecl (wished E w) ((wished E w).cls i).qname = true := hb
      rw [if_neg hb] at hop
      rw [if_neg hb']
      have e0 : (wished E w).cfg.binders (stdName (wished E w) ((wished E w).cls i).qname) = E.cfg.binders (stdName E (E.cls i).qname) := rfl
      rw [e0]
      split
      · rename_i hx; rw [if_pos hx] at hop; exact ⟨op, hop, List.Subset.refl _⟩
      · rename_i hx
        rw [if_neg hx, List.mem_append, List.mem_append] at hop
        simp only [List.mem_append]
        rcases hop with (hop | hop) | hop
        · have e1 : ((wished E w).cls i).isAnonymous = (E.cls i).isAnonymous := rfl
          rw [e1]
          split at hop
          · cases hop
          · rename_i ha
            rw [List.mem_singleton.1 hop, if_neg ha]
            refine ⟨_, .inl (.inl (List.mem_singleton_self _)), ?_⟩
            rw [Op.binds, Op.binds]
            have e2 : pythonClassName (wished E w) ((wished E w).cls i) = pythonClassName E (E.cls i) := rfl
            rw [e2]
            exact List.Subset.refl _
        · obtain ⟨t, ht, hop⟩ := List.mem_flatMap.1 hop
          exact ⟨op, .inl (.inr (List.mem_flatMap.2 ⟨t, wish_classItems h i ht, wish_itemOps h i _ t op hop⟩)), List.Subset.refl _⟩
        · obtain ⟨j, hj, hop⟩ := List.mem_flatMap.1 hop
          obtain ⟨op', h1, h2⟩ := ih _ j hop
          refine ⟨op', .inr (List.mem_flatMap.2 ⟨j, ?_, h1⟩), h2⟩
          rw [wish_nestedBound h]; exact hj

theorem wish_opsOf (v : Visit) (op : Op) (hop : op ∈ opsOf E v) : ∃ op' ∈ opsOf (wished E w) v, op.binds ⊆ op'.binds := by
  cases v with
  | fn F => exact ⟨op, hop, List.Subset.refl _⟩
  | cls i => exact wish_classOpsF h _ _ i op hop
  | enm i => exact ⟨op, hop, List.Subset.refl _⟩

end

/-! ## The program -/

theorem wishing_E (U : TransUnit) (w : Wishes) : (wishing U w).E = wished U.E w := by
  have h : visitInsertion (wished U.env w) = visitInsertion U.env := by
    funext v
    cases v with
    | fn F => rw [visitInsertion, visitInsertion, wish_functionBindable]
    | cls i => rfl
    | enm i => rfl
  show ({ wished U.env w with insertions := U.visits.filterMap (visitInsertion (wished U.env w)) } : Env) = _
  rw [h]
  rfl

theorem wishing_offered (U : TransUnit) (w : Wishes) : (wishing U w).offered = U.offered := by
  funext v
  cases v with
  | fn F => rw [TransUnit.offered, TransUnit.offered, wishing_E, wish_functionBindable]
  | cls i => rw [TransUnit.offered, TransUnit.offered, wishing_E, wish_classBindable]; rfl
  | enm i => rw [TransUnit.offered, TransUnit.offered, wishing_E]; rfl

theorem wishing_ident (U : TransUnit) (w : Wishes) : identOf (wishing U w).E = identOf U.E := by
  funext v
  rw [wishing_E]
  cases v <;> rfl

theorem wishing_considered (U : TransUnit) (w : Wishes) : considered (wishing U w) = considered U := by
  rw [considered_eq, considered_eq, wishing_offered]
  show firstOfName _ (U.visits.filter U.offered) = _
  generalize U.visits.filter U.offered = l
  induction l with
  | nil => rfl
  | cons v vs ih => rw [firstOfName, firstOfName, ih, wishing_ident]

theorem wishing_typeName (U : TransUnit) (w : Wishes) : typeNameOf (wishing U w).E = typeNameOf U.E := by
  funext v
  rw [wishing_E]
  cases v <;> rfl

theorem wishing_namespaceOf (U : TransUnit) (w : Wishes) : namespaceOf (wishing U w).E = namespaceOf U.E := by
  funext v
  rw [wishing_E]
  cases v <;> rfl

theorem Spec.Allowed.wished {E : Env} {w : Wishes} (h : (wishesOf E.cfg).Le w) {v : Visit} (ha : Allowed E v) : Allowed (wished E w) v where
  possible := by
    have := ha.possible
    cases v <;> exact this
  notSkipped := wish_skipQuery h ha.notSkipped
  notConverted := by
    have := ha.notConverted
    cases v <;> exact this

theorem wishing_reached {U : TransUnit} {w : Wishes} (h : (wishesOf U.env.cfg).Le w)
    (hc : (wishing U w).conflictIn [] ((wishing U w).visits.filter (wishing U w).offered) = false) {v : Visit} (hv : Reached U v) :
    Reached (wishing U w) v := by
  have h : (wishesOf U.E.cfg).Le w := h
  induction hv with
  | @asked v hcon hal hsys hq =>
    have hcon' : v ∈ considered (wishing U w) := by rw [wishing_considered]; exact hcon
    have hal' : Allowed (wishing U w).E v := by rw [wishing_E]; exact hal.wished h
    refine .asked hcon' hal' hsys ?_
    have hcon2 := hcon'
    rw [considered_eq] at hcon2
    have hf := conflictIn_false hc v hcon2 List.not_mem_nil ((allowed_iff hc hcon').2 hal').1
    have hb := conflict_bind hf hsys hal'.notSkipped
    rw [wishing_E] at hb ⊢
    refine wish_bindQuery h hq fun e he => ?_
    have := (hb true).1 (by rw [he]; rfl)
    rw [he] at this
    cases this
  | @needed x v t hx ht hlast hal ih =>
    refine .needed (t := t) ih ?_ ?_ (by rw [wishing_E]; exact hal.wished h)
    · rw [wishing_E]; exact wish_requestsOf h x ht
    · rw [wishing_considered, wishing_typeName]; exact hlast

end Binder
