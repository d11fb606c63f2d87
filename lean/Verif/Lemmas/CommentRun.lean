import Verif.Lemmas.CommentText
import Verif.Lemmas.OutputForm

/-! Runs with different values of the options for comments. -/

namespace Binder

open Spec Cxx

/-! ## The objects -/

theorem commented_E (U : TransUnit) (k : CommentOptions) : (commented U k).E = withComments U.E k := by
  have h : visitInsertion (withComments U.env k) = visitInsertion U.env := by
    funext v
    cases v with
    | fn F => rw [visitInsertion, visitInsertion, cmt_functionBindable]
    | cls i => rfl
    | enm i => rfl
  show ({ withComments U.env k with insertions := U.visits.filterMap (visitInsertion (withComments U.env k)) } : Env) = _
  rw [h]
  rfl

theorem commented_offered (U : TransUnit) (k : CommentOptions) : (commented U k).offered = U.offered := by
  funext v
  cases v with
  | fn F => rw [TransUnit.offered, TransUnit.offered, commented_E, cmt_functionBindable]
  | cls i => rw [TransUnit.offered, TransUnit.offered, commented_E, cmt_classBindable]; rfl
  | enm i => rw [TransUnit.offered, TransUnit.offered, commented_E]; rfl

theorem commented_ident (U : TransUnit) (k : CommentOptions) : identOf (commented U k).E = identOf U.E := by
  funext v
  rw [commented_E]
  cases v <;> rfl

theorem commented_considered (U : TransUnit) (k : CommentOptions) : considered (commented U k) = considered U := by
  rw [considered_eq, considered_eq, commented_offered]
  show firstOfName _ (U.visits.filter U.offered) = _
  generalize U.visits.filter U.offered = l
  induction l with
  | nil => rfl
  | cons v vs ih => rw [firstOfName, firstOfName, ih, commented_ident]

theorem classCode_nil (E : Env) (i : Nat) : (classOutput E i).code = [] ↔ builtinDecl E (E.cls i).qname = true := by
  constructor
  · intro h
    cases hb : builtinDecl E (E.cls i).qname with
    | true => rfl
    | false => exact absurd h (C25_class_text E i hb)
  · intro h
    rw [classOutput, bindClassTextF, if_pos h]
    rfl

theorem decl_sim (U : TransUnit) (k : CommentOptions) (v : Visit) : DeclSim (U.decl v) ((commented U k).decl v) := by
  have hE := commented_E U k
  cases v with
  | fn F =>
    simp only [TransUnit.decl, hE]
    refine ⟨rfl, rfl, rfl, rfl, ?_, rfl, rfl, ?_, ?_, ?_, ?_, rfl, rfl⟩
    · exact (congrFun (cmt_functionBindable U.E k) F).symm
    · exact congrArg answer (congrFun (cmt_skipFunction U.E k) F).symm
    · exact congrArg answer (congrFun (cmt_bindFunctionAsked U.E k) F).symm
    · exact ⟨fun h => absurd h (C25_function_text _ F), fun h => absurd h (C25_function_text _ F)⟩
    · exact (congrFun (cmt_bindFunctionRequests U.E k) F).symm
  | cls i =>
    simp only [TransUnit.decl, hE]
    refine ⟨rfl, rfl, rfl, rfl, ?_, rfl, rfl, ?_, ?_, ?_, ?_, ?_, rfl⟩
    · exact (congrFun (cmt_classBindable U.E k) i).symm
    · exact congrArg answer (congrFun (cmt_skipClass U.E k) i).symm
    · exact congrArg answer (congrFun (cmt_bindClass U.E k) i).symm
    · exact (classCode_nil U.E i).trans (classCode_nil (withComments U.E k) i).symm
    · exact (cmt_shape U.E k _ i).1.symm
    · exact congrArg (List.map (recOf U.E)) (cmt_shape U.E k _ i).2.1.symm
  | enm i =>
    simp only [TransUnit.decl, hE]
    exact ⟨rfl, rfl, rfl, rfl, rfl, rfl, rfl, rfl, rfl,
      ⟨fun h => absurd h (C25_enum_text _ _), fun h => absurd h (C25_enum_text _ _)⟩, rfl, rfl, rfl⟩

theorem offers_sim (U : TransUnit) (k : CommentOptions) : All2 DeclSim U.offers (commented U k).offers := by
  rw [TransUnit.offers, TransUnit.offers, commented_offered]
  exact All2.of_map fun v _ => decl_sim U k v

theorem cmt_conflict (U : TransUnit) (k : CommentOptions) (v : Visit) : (commented U k).conflict v = U.conflict v := by
  unfold TransUnit.conflict
  rw [commented_E]
  have h1 : skipQuery (withComments U.E k) v = skipQuery U.E v := by
    cases v with
    | fn F => exact congrFun (cmt_skipFunction U.E k) F
    | cls i => exact congrFun (cmt_skipClass U.E k) i
    | enm i => rfl
  have h2 : bindQuery (withComments U.E k) v = bindQuery U.E v := by
    cases v with
    | fn F => exact congrFun (cmt_bindFunctionAsked U.E k) F
    | cls i => exact congrFun (cmt_bindClass U.E k) i
    | enm i => rfl
  rw [h1, h2]
  rfl

theorem cmt_conflictIn (U : TransUnit) (k : CommentOptions) (seen : List Str) (vs : List Visit) :
    (commented U k).conflictIn seen vs = U.conflictIn seen vs := by
  induction vs generalizing seen with
  | nil => rfl
  | cons v vs ih =>
    rw [TransUnit.conflictIn, TransUnit.conflictIn, ih, ih, cmt_conflict, (decl_sim U k v).ident, (decl_sim U k v).canBind]

theorem cmt_distinct {U : TransUnit} (k : CommentOptions) {o : Opts} (h : DistinctNames U o) : DistinctNames (commented U k) o := by
  have e : (fun v : Visit => fileNamePrefix ((commented U k).decl v).incl (namespaceOf (commented U k).E v)) =
      fun v : Visit => fileNamePrefix (U.decl v).incl (namespaceOf U.E v) := by
    funext v
    rw [← (decl_sim U k v).incl, ← decl_ns, ← decl_ns, ← (decl_sim U k v).ns]
  unfold DistinctNames at h ⊢
  rw [e]
  exact h

/-! ## The calls of pybind11 -/

theorem cmt_classOpsF (E : Env) (k : CommentOptions) (n : Nat) : classOpsF (withComments E k) n = classOpsF E n := by
  induction n with
  | zero => rfl
  | succ n ih =>
    funext s i
    have h : itemOps (withComments E k) i = itemOps E i := by
      funext s x
      cases x <;> first | rfl | (simp only [itemOps, cmt_trampoline]; rfl)
    simp only [classOpsF, ih, cmt_classItems, cmt_boundBases, cmt_nestedBound, h]
    rfl

theorem cmt_opsOf (E : Env) (k : CommentOptions) : opsOf (withComments E k) = opsOf E := by
  funext v
  cases v with
  | fn F => rfl
  | cls i => exact congrFun (congrFun (cmt_classOpsF E k (E.nestRank i + 1)) (.type [])) i
  | enm i => rfl

theorem cmt_ops (E : Env) (k : CommentOptions) : Stmt.ops (withComments E k) = Stmt.ops E := by
  funext s
  cases s with
  | binds v => exact congrFun (cmt_opsOf E k) v
  | calls f ns => rfl
  | traces n id => rfl

/-! ## Two runs -/

section

variable {U : TransUnit} {k : CommentOptions} {o o' : Opts} {fs fs' gs gs' : FS} {st st' : BindState} {bs bs' : List SortItem}
  {files files' : List OutFile} {fs1 fs2 gs1 gs2 : FS}

theorem RunDone.sim (h : RunDone U o fs fs' st bs files fs1 fs2) (h' : RunDone (commented U k) o' gs gs' st' bs' files' gs1 gs2) :
    All2 ItemSim bs bs' := by
  rcases run_sim (offers_sim U k) h.bind h'.bind h.sort h'.sort with ⟨e, _⟩ | ⟨x, x', e, e', hs⟩
  · cases e
  · cases e; cases e'; exact hs

theorem visitOf_sim (h : RunDone U o fs fs' st bs files fs1 fs2) (h' : RunDone (commented U k) o' gs gs' st' bs' files' gs1 gs2)
    {b b' : SortItem} (hb : b ∈ bs) (hb' : b' ∈ bs') (hs : ItemSim b b') : Binder.visitOf U b = Binder.visitOf (commented U k) b' := by
  have h1 := h.visitOf hb
  have h2 := h'.visitOf hb'
  rw [commented_considered] at h2
  refine firstOfName_inj h1.1 h2.1 ?_
  rw [← decl_ident, ← h1.2.1, hs.decl.ident, h2.2.1, decl_ident, commented_ident]

theorem rest_sim (h : RunDone U o fs fs' st bs files fs1 fs2) (h' : RunDone (commented U k) o' gs gs' st' bs' files' gs1 gs2)
    (c : Config) {l l' : List SortItem} (hl : All2 ItemSim l l') (seen : Str → Bool) (h1 : ∀ b ∈ l, b ∈ bs) (h2 : ∀ b ∈ l', b ∈ bs') :
    (restPieces c seen l).map (stmtOf U) = (restPieces c seen l').map (stmtOf (commented U k)) := by
  induction hl generalizing seen with
  | nil => rfl
  | cons hd hl ih =>
    rename_i b b' l l'
    have ih := fun seen => ih seen (fun x hx => h1 x (by simp [hx])) (fun x hx => h2 x (by simp [hx]))
    have hv := visitOf_sim h h' (h1 b (by simp)) (h2 b' (by simp)) hd
    rw [restPieces, restPieces]
    by_cases e : b.code = []
    · rw [if_pos e, if_pos (hd.code.1 e)]; exact ih seen
    · rw [if_neg e, if_neg (fun e' => e (hd.code.2 e')), hd.decl.ns]
      simp only [List.map_append, ih]
      congr 2
      · apply List.map_congr_left
        intro p hp
        cases p with
        | code x => exact absurd hp (startBody_no_code x)
        | _ => rfl
      · split
        · rfl
        · simp [stmtOf, hv]

theorem nested_sim {l l' : List SortItem} (hl : All2 ItemSim l l') : allNestedNamespaces l = allNestedNamespaces l' := by
  unfold allNestedNamespaces
  congr 1
  induction hl with
  | nil => rfl
  | cons hd _ ih =>
    rename_i b b' l1 l2 _
    rw [List.flatMap_cons, List.flatMap_cons, ih, hd.decl.ns]
    have := hd.code
    by_cases e : b.code = []
    · have e' := this.1 e; simp [e, e']
    · have e' : b'.code ≠ [] := fun x => e (this.2 x)
      simp [e, e']

end

/-! ## Include lines -/

theorem noteless_note (i n : Str) : noteless (i ++ (c!" // " ++ n)) = noteless i := by
  induction i with
  | nil => simp [noteless]
  | cons c i ih =>
    rw [List.cons_append, noteless, noteless, ih]
    have : (i ++ (c!" // " ++ n)).take 2 = c!"//" ↔ i.take 2 = c!"//" := by
      match i with
      | [] => simp
      | [d] => simp
      | d :: e :: i => simp
    simp only [this]

/-- Include lines that are the same apart from notes. -/
def SameIncl (a b : List Str) : Prop := a.map noteless = b.map noteless

theorem SameIncl.append {a b a' b' : List Str} (h : SameIncl a b) (h' : SameIncl a' b') : SameIncl (a ++ a') (b ++ b') := by
  unfold SameIncl at *; rw [List.map_append, List.map_append, h, h']

theorem noteless_annotated (b : Bool) (i n : Str) : noteless (if b then i ++ c!" // " ++ n else i) = noteless i := by
  cases b with
  | true => rw [if_pos rfl, List.append_assoc, noteless_note]
  | false => rfl

theorem same_includesForName (E : Env) (k : CommentOptions) (name incl : Str) :
    SameIncl (includesForName (withComments E k) name incl) (includesForName E name incl) := by
  unfold SameIncl includesForName
  simp only [cmt_stdName]
  have h : ∀ (b : Bool) i, [if b = true then i ++ c!" // " ++ stdName E name else i].map noteless = [noteless i] := by
    intro b i
    rw [List.map_singleton, noteless_annotated]
  split
  · rw [h, h]
  · split
    · rw [h, h]
    · split <;> (split <;> first | rfl | rw [h, h])

inductive StepSim : Step → Step → Prop where
  | lines {a b} : SameIncl a b → StepSim (.lines a) (.lines b)
  | visit {d l} : StepSim (.visit d l) (.visit d l)

theorem StepSim.visits {α : Type} (f : α → Node) (g : α → Nat) (l : List α) :
    All2 StepSim (l.map fun x => Step.visit (f x) (g x)) (l.map fun x => Step.visit (f x) (g x)) :=
  All2.of_map fun _ _ => .visit

theorem All2.flatMap {α β γ : Type} {R : α → β → Prop} {f : γ → List α} {g : γ → List β} (l : List γ) (h : ∀ x ∈ l, All2 R (f x) (g x)) :
    All2 R (l.flatMap f) (l.flatMap g) := by
  induction l with
  | nil => exact .nil
  | cons x l ih =>
    rw [List.flatMap_cons, List.flatMap_cons]
    exact (h x (by simp)).append (ih fun y hy => h y (by simp [hy]))

theorem same_nodeSteps (E : Env) (k : CommentOptions) (d : Node) (level : Nat) :
    All2 StepSim (nodeSteps (withComments E k) d level) (nodeSteps E d level) := by
  have hl : ∀ name incl, All2 StepSim [.lines (includesForName (withComments E k) name incl)] [.lines (includesForName E name incl)] :=
    fun name incl => .cons (.lines (same_includesForName E k name incl)) .nil
  cases d with
  | cls i =>
    show All2 StepSim (classSteps (withComments E k) i level) (classSteps E i level)
    unfold classSteps templateMethods
    rw [cmt_functionBindable, cmt_skipFunction]
    refine .append (.append (.append (hl _ _) ?_) (StepSim.visits _ _ _)) ?_
    · show All2 StepSim (match (E.cls i).targs with | some as => _ | none => _) _
      cases (E.cls i).targs with
      | none => exact .nil
      | some as =>
        refine All2.flatMap as fun a _ => ?_
        unfold argSteps
        cases a.kind with
        | type t => exact StepSim.visits _ _ _
        | template key incl => exact hl _ _
        | declaration _ key incl => exact hl _ _
        | integral t => exact StepSim.visits _ _ _
        | pack _ => exact .nil
        | other => exact .nil
    · split
      · exact StepSim.visits _ _ _
      · exact .nil
  | enm i =>
    show All2 StepSim (enumSteps (withComments E k) (E.enumD i)) (enumSteps E (E.enumD i))
    unfold enumSteps
    refine .append (hl _ _) ?_
    cases (E.enumD i).definitionIncl with
    | none => exact .nil
    | some incl => exact hl _ _
  | fn F =>
    show All2 StepSim (functionSteps (withComments E k) F level) (functionSteps E F level)
    unfold functionSteps
    exact .append (hl _ _) (All2.flatMap _ fun t _ => StepSim.visits _ _ _)

structure InclSim (s s' : IncludeSet) : Prop where
  includes : SameIncl s.includes s'.includes
  stack : s.stack = s'.stack

/-- Both end with related results, or both need more fuel. -/
def OptSim : Option IncludeSet → Option IncludeSet → Prop
  | none, none => True
  | some s, some s' => InclSim s s'
  | _, _ => False

theorem addDecl_sim {s s' : IncludeSet} (h : InclSim s s') (d : Node) (l : Nat) : OptSim (s.addDecl d l) (s'.addDecl d l) := by
  unfold IncludeSet.addDecl
  rw [h.stack]
  cases s'.stack d with
  | none => exact ⟨h.includes, by simp only [h.stack]⟩
  | some old =>
    simp only
    split
    · trivial
    · exact ⟨h.includes, by simp only [h.stack]⟩

theorem runSteps_sim {visit visit' : IncludeSet → Node → Nat → Option IncludeSet}
    (hv : ∀ s s' d l, InclSim s s' → OptSim (visit s d l) (visit' s' d l)) {a b : List Step} (hab : All2 StepSim a b) {s s' : IncludeSet}
    (h : InclSim s s') : OptSim (runSteps visit s a) (runSteps visit' s' b) := by
  induction hab generalizing s s' with
  | nil => exact h
  | cons hd _ ih =>
    cases hd with
    | lines hl => exact ih ⟨h.includes.append hl, h.stack⟩
    | visit =>
      rename_i d l
      rw [runSteps, runSteps]
      have := hv s s' d l h
      generalize visit s d l = x at this
      generalize visit' s' d l = y at this
      cases x <;> cases y <;> first | trivial | exact this.elim | exact ih this

theorem visitF_sim (E : Env) (k : CommentOptions) (n : Nat) (s s' : IncludeSet) (d : Node) (l : Nat) (h : InclSim s s') :
    OptSim (visitF (nodeSteps (withComments E k)) n s d l) (visitF (nodeSteps E) n s' d l) := by
  induction n generalizing s s' d l with
  | zero => trivial
  | succ n ih =>
    rw [visitF, visitF]
    have := addDecl_sim h d l
    generalize s.addDecl d l = x at this
    generalize s'.addDecl d l = y at this
    cases x <;> cases y <;> first | exact this.elim | exact h | exact runSteps_sim (fun s s' d l h => ih s s' d l h) (same_nodeSteps E k d l) this

theorem same_includesOf (E : Env) (k : CommentOptions) (n : Nat) {a b : List Step} (h : All2 StepSim a b) :
    SameIncl (includesOf (withComments E k) n a) (includesOf E n b) := by
  have := runSteps_sim (fun s s' d l h => visitF_sim E k n s s' d l h) h (s := { includes := [] }) (s' := { includes := [] }) ⟨rfl, rfl⟩
  unfold includesOf collectF
  generalize runSteps (visitF (nodeSteps (withComments E k)) n) { includes := [] } a = x at this
  generalize runSteps (visitF (nodeSteps E) n) { includes := [] } b = y at this
  cases x <;> cases y <;> first | exact this.elim | rfl | exact this.includes

theorem same_classBinderSteps (E : Env) (k : CommentOptions) (p : List Func) (n i : Nat) :
    All2 StepSim (classBinderStepsF (withComments E k) p n i) (classBinderStepsF E p n i) := by
  induction n generalizing p i with
  | zero => exact .nil
  | succ n ih =>
    rw [classBinderStepsF, classBinderStepsF]
    refine .append (.append (.append (.cons (.lines ?_) .nil) (All2.flatMap _ fun j _ => ih [] j)) (StepSim.visits _ _ _))
      (.cons .visit (.cons (.lines rfl) .nil))
    unfold SameIncl
    rw [List.map_map, List.map_map]
    apply List.map_congr_left
    intro x _
    have h : ∀ b : Bool, noteless (if b = true then x ++ c!" // +include_for_class" else x) = noteless x := by
      intro b
      cases b with
      | true => exact noteless_note x c!"+include_for_class"
      | false => rfl
    simp only [Function.comp]
    rw [h, h]

theorem same_declIncludes (U : TransUnit) (k : CommentOptions) (v : Visit) : SameIncl ((commented U k).decl v).includes (U.decl v).includes := by
  have hE := commented_E U k
  cases v with
  | fn F => simp only [TransUnit.decl, hE]; exact same_includesOf U.E k _ (.cons .visit .nil)
  | cls i =>
    simp only [TransUnit.decl, hE]
    refine same_includesOf U.E k _ ?_
    rw [show (classOutput (withComments U.E k) i).prefixIncludes = (classOutput U.E i).prefixIncludes from (cmt_shape U.E k _ i).2.2]
    exact same_classBinderSteps U.E k _ _ i
  | enm i => simp only [TransUnit.decl, hE]; exact same_includesOf U.E k _ (.cons .visit .nil)

/-! ## The include lines of a file -/

/-- What the lines collected for a file are, while it is filled. -/
structure FillIncl (o : Opts) (init : List Str) (s : Fill) : Prop where
  start : ∀ y ∈ init, y ∈ s.includes
  trace : ∀ b, Piece.code b ∈ s.body → o.trace = true → traceInclude o ∈ s.includes
  decls : ∀ b, Piece.code b ∈ s.body → ∀ y ∈ b.decl.includes, y ∈ s.includes
  only : ∀ y ∈ s.includes, y ∈ init ∨ (o.trace = true ∧ y = traceInclude o) ∨ ∃ b, Piece.code b ∈ s.body ∧ y ∈ b.decl.includes

theorem fillBody_incl {o : Opts} {start : List Str} {s : Fill} (h : FillIncl o start s) (skip : Bool) (b : SortItem) : FillIncl o start (fillBody o skip b s) := by
  unfold fillBody
  cases skip with
  | true => exact ⟨h.start, h.trace, h.decls, h.only⟩
  | false =>
    simp only [Bool.false_eq_true, if_false]
    have h1 : FillIncl o start (if o.trace then
        { s with pre := s.pre ++ b.pre, body := s.body ++ [.trace s.traced b.decl.ident], traced := s.traced + 1, includes := s.includes ++ [traceInclude o] }
        else { s with pre := s.pre ++ b.pre }) ∧ (o.trace = true → traceInclude o ∈ (if o.trace then
        { s with pre := s.pre ++ b.pre, body := s.body ++ [.trace s.traced b.decl.ident], traced := s.traced + 1, includes := s.includes ++ [traceInclude o] }
        else { s with pre := s.pre ++ b.pre } : Fill).includes) := by
      cases ht : o.trace with
      | false => exact ⟨⟨h.start, h.trace, h.decls, h.only⟩, by simp⟩
      | true =>
        refine ⟨⟨fun y hy => List.mem_append_left _ (h.start y hy), fun _ _ _ => by simp, fun c hc y hy => ?_, fun y hy => ?_⟩, fun _ => by simp⟩
        · simp only [if_true, List.mem_append, List.mem_singleton] at hc ⊢
          rcases hc with hc | hc
          · exact .inl (h.decls c hc y hy)
          · cases hc
        · simp only [if_true, List.mem_append, List.mem_singleton] at hy ⊢
          rcases hy with hy | hy
          · rcases h.only y hy with h1 | h1 | ⟨c, hc, h1⟩
            · exact .inl h1
            · exact .inr (.inl h1)
            · exact .inr (.inr ⟨c, .inl hc, h1⟩)
          · exact .inr (.inl ⟨ht, hy⟩)
    generalize (if o.trace then
        { s with pre := s.pre ++ b.pre, body := s.body ++ [.trace s.traced b.decl.ident], traced := s.traced + 1, includes := s.includes ++ [traceInclude o] }
        else { s with pre := s.pre ++ b.pre } : Fill) = t at h1
    obtain ⟨h1, h2⟩ := h1
    split
    · refine ⟨fun y hy => List.mem_append_left _ (h1.start y hy), fun _ _ ht => List.mem_append_left _ (h2 ht), fun c hc y hy => ?_, fun y hy => ?_⟩
      · simp only [List.mem_append, List.mem_singleton] at hc ⊢
        rcases hc with hc | hc
        · exact .inl (h1.decls c hc y hy)
        · cases hc; exact .inr hy
      · simp only [List.mem_append, List.mem_singleton] at hy ⊢
        rcases hy with hy | hy
        · rcases h1.only y hy with h1 | h1 | ⟨c, hc, h1⟩
          · exact .inl h1
          · exact .inr (.inl h1)
          · exact .inr (.inr ⟨c, .inl hc, h1⟩)
        · exact .inr (.inr ⟨b, .inr rfl, hy⟩)
    · exact ⟨h1.start, h1.trace, h1.decls, h1.only⟩

theorem fill_incl {o : Opts} {start : List Str} (ns : Str) (skip : Bool) (l : List SortItem) {s : Fill} (h : FillIncl o start s) :
    FillIncl o start (fill o ns skip l s) := by
  induction l generalizing s with
  | nil => exact h
  | cons b l ih =>
    rw [fill]
    split
    · exact ih (fillBody_incl h skip b)
    · exact h

theorem gen_incl {c : Config} {o : Opts} {bs : List SortItem} {files : List OutFile} (hr : Loop.Returns (genStep c o bs) GenState.init files) :
    ∀ F ∈ files, ∀ b0 ∈ declsOf F, ∀ y, y ∈ F.includes ↔
      y ∈ c.namespaceIncludes F.ns ∨ (o.trace = true ∧ y = traceInclude o) ∨ ∃ b ∈ declsOf F, y ∈ b.decl.includes := by
  have hd : ∀ (F : OutFile) (b : SortItem), b ∈ declsOf F ↔ Piece.code b ∈ F.body := by
    intro F b
    unfold declsOf
    rw [List.mem_filterMap]
    constructor
    · rintro ⟨p, hp, e⟩
      cases p <;> simp [declOf] at e
      subst e; exact hp
    · exact fun h => ⟨_, h, rfl⟩
  suffices ∀ F ∈ files, ∃ s : Fill, F.body = s.body ∧ F.includes = s.includes ∧ FillIncl o (c.namespaceIncludes F.ns) s by
    intro F hF b0 hb0 y
    obtain ⟨s, h1, h2, h3⟩ := this F hF
    simp only [hd, h1] at hb0 ⊢
    rw [h2]
    constructor
    · exact h3.only y
    · rintro (h | ⟨h, rfl⟩ | ⟨b, hb, h⟩)
      · exact h3.start y h
      · exact h3.trace b0 hb0 h
      · exact h3.decls b hb y h
  refine Loop.returns_induct (fun s : GenState => ∀ F ∈ s.files, ∃ s : Fill, F.body = s.body ∧ F.includes = s.includes ∧ FillIncl o (c.namespaceIncludes F.ns) s)
    (fun files => ∀ F ∈ files, ∃ s : Fill, F.body = s.body ∧ F.includes = s.includes ∧ FillIncl o (c.namespaceIncludes F.ns) s)
    ?_ ?_ (by simp [GenState.init]) hr
  · intro s s' hP hs
    unfold genStep at hs
    split at hs
    · cases hs
    · split at hs
      · cases hs; exact hP
      · simp only [Sum.inl.injEq] at hs
        subst hs
        intro F hF
        dsimp only at hF
        rcases List.mem_append.1 hF with hF | hF
        · exact hP F hF
        · rw [List.mem_singleton] at hF; subst hF
          refine ⟨_, rfl, rfl, fill_incl _ _ _ ⟨fun _ h => h, ?_, ?_, fun y hy => .inl hy⟩⟩
          · exact fun b hb => absurd hb (startBody_no_code b)
          · exact fun b hb => absurd hb (startBody_no_code b)
  · intro s r hP hs
    unfold genStep at hs
    split at hs
    · cases hs; exact hP
    · split at hs <;> cases hs

theorem traceInclude_note (o : Opts) : noteless (traceInclude o) = c!"<iostream>" := by
  unfold traceInclude
  cases o.annotate <;> decide

theorem prefix_noteless {e x : Str} (h : ' ' ∉ e) : e <+: noteless x ↔ e <+: x := by
  induction x generalizing e with
  | nil => simp [noteless]
  | cons c x ih =>
    rw [noteless]
    cases e with
    | nil => simp
    | cons d e =>
      rw [List.mem_cons, not_or] at h
      split
      · rename_i hc
        simp only [List.prefix_nil, reduceCtorEq, false_iff, List.cons_prefix_cons, not_and]
        intro e'; exact absurd (e'.trans hc.1).symm h.1
      · rw [List.cons_prefix_cons, List.cons_prefix_cons, ih h.2]

end Binder
