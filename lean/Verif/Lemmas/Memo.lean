import Verif.Model.Memo
import Verif.Lemmas.Queries

/-! # Lemmas about the static caches -/

namespace Binder

open Cxx

namespace Ask

variable {K V α β : Type}

theorem eval_bind (answers : K → V) (a : Ask K V α) (f : α → Ask K V β) : (a.bind f).eval answers = (f (a.eval answers)).eval answers := by
  induction a with
  | done a => rfl
  | ask k next ih => exact ih _

theorem eval_and (answers : K → V) (a b : Ask K V Bool) : (a.and b).eval answers = (a.eval answers && b.eval answers) := by
  unfold Ask.and
  rw [eval_bind]
  cases a.eval answers <;> rfl

theorem eval_both (answers : K → V) (a b : Ask K V Bool) : (a.both b).eval answers = (a.eval answers && b.eval answers) := by
  unfold Ask.both
  rw [eval_bind, eval_bind]
  rfl

/-- Every call of the computation satisfies `P`, whatever the answers. -/
def Calls (P : K → Prop) : Ask K V α → Prop
  | .done _ => True
  | .ask k next => P k ∧ ∀ v, (next v).Calls P

theorem calls_bind {P : K → Prop} {a : Ask K V α} {f : α → Ask K V β} (ha : a.Calls P) (hf : ∀ x, (f x).Calls P) : (a.bind f).Calls P := by
  induction a with
  | done a => exact hf a
  | ask k next ih => exact ⟨ha.1, fun v => ih v (ha.2 v)⟩

theorem calls_and {P : K → Prop} {a b : Ask K V Bool} (ha : a.Calls P) (hb : b.Calls P) : (a.and b).Calls P :=
  calls_bind ha fun x => by
    cases x
    · exact trivial
    · exact hb

theorem calls_both {P : K → Prop} {a b : Ask K V Bool} (ha : a.Calls P) (hb : b.Calls P) : (a.both b).Calls P :=
  calls_bind ha fun _ => calls_bind hb fun _ => trivial

end Ask

section

variable {K V : Type} [DecidableEq K]

/-- All entries of the tables are right. -/
def Right (answers : K → V) (c : K → Option V) : Prop := ∀ k v, c k = some v → v = answers k

theorem right_insert {answers : K → V} {c : K → Option V} (h : Right answers c) (k : K) : Right answers (insertCache c k (answers k)) := by
  unfold insertCache
  split
  · exact h
  · intro x v hx
    by_cases he : x = k
    · subst he; simp at hx; exact hx.symm
    · simp [he] at hx; exact h x v hx

theorem run_right {answers : K → V} {query : K → (K → Option V) → Option (V × (K → Option V))}
    (hq : ∀ k c v c', query k c = some (v, c') → Right answers c → v = answers k ∧ Right answers c') {α : Type} (a : Ask K V α) :
    ∀ c x c', a.run query c = some (x, c') → Right answers c → x = a.eval answers ∧ Right answers c' := by
  induction a with
  | done a => intro c x c' h hc; cases h; exact ⟨rfl, hc⟩
  | ask k next ih =>
    intro c x c' h hc
    simp only [Ask.run] at h
    split at h
    · cases h
    · rename_i v c1 hk
      obtain ⟨rfl, h1⟩ := hq k c v c1 hk hc
      exact ih _ c1 x c' h h1

theorem memoF_right {raw : K → Ask K V V} {answers : K → V} (hr : ∀ k, (raw k).eval answers = answers k) : ∀ n k c v c',
    memoF raw n k c = some (v, c') → Right answers c → v = answers k ∧ Right answers c' := by
  intro n
  induction n with
  | zero => intro k c v c' h; cases h
  | succ n ih =>
    intro k c v c' h hc
    simp only [memoF] at h
    split at h
    · rename_i w hw
      cases h
      exact ⟨hc k v hw, hc⟩
    · split at h
      · cases h
      · rename_i w c1 hrun
        cases h
        obtain ⟨h1, h2⟩ := run_right ih (raw k) c v c1 hrun hc
        rw [hr] at h1
        subst h1
        exact ⟨rfl, right_insert h2 k⟩

theorem historyF_right {raw : K → Ask K V V} {answers : K → V} (hr : ∀ k, (raw k).eval answers = answers k) (n : Nat) : ∀ ks c vs c',
    historyF raw n ks c = some (vs, c') → Right answers c → vs = ks.map answers ∧ Right answers c' := by
  intro ks
  induction ks with
  | nil => intro c vs c' h hc; cases h; exact ⟨rfl, hc⟩
  | cons k ks ih =>
    intro c vs c' h hc
    simp only [historyF] at h
    split at h
    · cases h
    · rename_i v c1 h1
      obtain ⟨rfl, hc1⟩ := memoF_right hr n k c v c1 h1 hc
      split at h
      · cases h
      · rename_i vs' c2 h2
        cases h
        obtain ⟨rfl, hc2⟩ := ih c1 vs' c' h2 hc1
        exact ⟨rfl, hc2⟩

/-- The entries of the tables for some of the keys are right. -/
def RightOn (P : K → Prop) (answers : K → V) (c : K → Option V) : Prop := ∀ k v, P k → c k = some v → v = answers k

theorem run_rightOn {P : K → Prop} {answers : K → V} {query : K → (K → Option V) → Option (V × (K → Option V))}
    (hq : ∀ k c v c', query k c = some (v, c') → RightOn P answers c → (P k → v = answers k) ∧ RightOn P answers c') {α : Type} (a : Ask K V α) :
    ∀ c x c', a.run query c = some (x, c') → RightOn P answers c → (a.Calls P → x = a.eval answers) ∧ RightOn P answers c' := by
  induction a with
  | done a => intro c x c' h hc; cases h; exact ⟨fun _ => rfl, hc⟩
  | ask k next ih =>
    intro c x c' h hc
    simp only [Ask.run] at h
    split at h
    · cases h
    · rename_i v c1 hk
      obtain ⟨h1, h2⟩ := hq k c v c1 hk hc
      obtain ⟨h3, h4⟩ := ih _ c1 x c' h h2
      refine ⟨fun ha => ?_, h4⟩
      rw [h3 (ha.2 v), h1 ha.1]
      rfl

theorem memoF_rightOn {P : K → Prop} {raw : K → Ask K V V} {answers : K → V}
    (hr : ∀ k, P k → (raw k).Calls P ∧ (raw k).eval answers = answers k) : ∀ n k c v c',
    memoF raw n k c = some (v, c') → RightOn P answers c → (P k → v = answers k) ∧ RightOn P answers c' := by
  intro n
  induction n with
  | zero => intro k c v c' h; cases h
  | succ n ih =>
    intro k c v c' h hc
    simp only [memoF] at h
    split at h
    · rename_i w hw
      cases h
      exact ⟨fun hk => hc k v hk hw, hc⟩
    · split at h
      · cases h
      · rename_i w c1 hrun
        cases h
        obtain ⟨h1, h2⟩ := run_rightOn ih (raw k) c v c1 hrun hc
        have hv : P k → v = answers k := fun hk => (h1 (hr k hk).1).trans (hr k hk).2
        refine ⟨hv, ?_⟩
        intro x y hx hy
        unfold insertCache at hy
        cases hck : c1 k with
        | some w => simp only [hck] at hy; exact h2 x y hx hy
        | none =>
          simp only [hck] at hy
          by_cases he : x = k
          · subst he
            simp only [if_true, Option.some.injEq] at hy
            rw [← hy, hv hx]
          · simp only [he, if_false] at hy
            exact h2 x y hx hy

theorem historyF_rightOn {P : K → Prop} {raw : K → Ask K V V} {answers : K → V}
    (hr : ∀ k, P k → (raw k).Calls P ∧ (raw k).eval answers = answers k) (n : Nat) : ∀ ks c vs c',
    historyF raw n ks c = some (vs, c') → RightOn P answers c → (∀ k v, (k, v) ∈ ks.zip vs → P k → v = answers k) ∧ RightOn P answers c' := by
  intro ks
  induction ks with
  | nil => intro c vs c' h hc; cases h; exact ⟨fun k v h => (by cases h), hc⟩
  | cons k ks ih =>
    intro c vs c' h hc
    simp only [historyF] at h
    split at h
    · cases h
    · rename_i v c1 h1
      obtain ⟨hv, hc1⟩ := memoF_rightOn hr n k c v c1 h1 hc
      split at h
      · cases h
      · rename_i vs' c2 h2
        cases h
        obtain ⟨hvs, hc2⟩ := ih c1 vs' c' h2 hc1
        refine ⟨fun x y hxy hx => ?_, hc2⟩
        rw [List.zip_cons_cons] at hxy
        rcases List.mem_cons.1 hxy with e | hxy
        · cases e; exact hv hx
        · exact hvs x y hxy hx

theorem run_total {P : K → Prop} {query : K → (K → Option V) → Option (V × (K → Option V))} (hq : ∀ k, P k → ∀ c, ∃ r, query k c = some r)
    {α : Type} (a : Ask K V α) (ha : a.Calls P) : ∀ c, ∃ r, a.run query c = some r := by
  induction a with
  | done a => exact fun c => ⟨_, rfl⟩
  | ask k next ih =>
    intro c
    obtain ⟨⟨v, c1⟩, h⟩ := hq k ha.1 c
    simp only [Ask.run, h]
    exact ih v (ha.2 v) c1

theorem memoF_total {raw : K → Ask K V V} {rank : K → Nat} (hr : ∀ k, (raw k).Calls fun k' => rank k' < rank k) : ∀ n k c, rank k < n →
    ∃ r, memoF raw n k c = some r := by
  intro n
  induction n with
  | zero => intro k c h; omega
  | succ n ih =>
    intro k c h
    simp only [memoF]
    split
    · exact ⟨_, rfl⟩
    · obtain ⟨⟨v, c1⟩, h1⟩ := run_total (P := fun k' => rank k' < rank k) (fun k' hk c => ih k' c (by omega)) (raw k) (hr k) c
      rw [h1]
      exact ⟨_, rfl⟩

theorem historyF_total {raw : K → Ask K V V} {rank : K → Nat} (hr : ∀ k, (raw k).Calls fun k' => rank k' < rank k) (n : Nat) : ∀ ks c,
    (∀ k ∈ ks, rank k < n) → ∃ r, historyF raw n ks c = some r := by
  intro ks
  induction ks with
  | nil => exact fun c _ => ⟨_, rfl⟩
  | cons k ks ih =>
    intro c h
    obtain ⟨⟨v, c1⟩, h1⟩ := memoF_total hr n k c (h k List.mem_cons_self)
    obtain ⟨⟨vs, c2⟩, h2⟩ := ih c1 (fun x hx => h x (List.mem_cons_of_mem _ hx))
    exact ⟨(v :: vs, c2), by simp only [historyF, h1, h2]⟩

end

/-! ## The cached functions of the program -/

variable (E : Env)

theorem target_of_asRecord {t : Ty} {i : Nat} (h : t.asRecord = some i) : t.target = some i := target_of_named ((asRecord_named t i).1 h)

theorem tyHeadOk_congr {f g : Nat → Bool} {t : Ty} (h : ∀ j, t.target = some j → f j = g j) : tyHeadOk E f t = tyHeadOk E g t := by
  unfold tyHeadOk
  cases hr : t.asRecord with
  | none => rfl
  | some j => simp only [h j (target_of_asRecord hr)]

theorem tyBindableWith_congr {f g : Nat → Bool} : ∀ {t : Ty}, (∀ j, t.target = some j → f j = g j) →
    tyBindableWith E f t = tyBindableWith E g t
  | .const t, h => by rw [tyBindableWith, tyBindableWith]; exact tyBindableWith_congr (t := t) h
  | .ptr t, h => by rw [tyBindableWith, tyBindableWith, tyHeadOk_congr E h, tyBindableWith_congr (t := t) h]
  | .lref t, h => by rw [tyBindableWith, tyBindableWith, tyHeadOk_congr E h, tyBindableWith_congr (t := t) h]
  | .rref t, h => by rw [tyBindableWith, tyBindableWith, tyHeadOk_congr E h, tyBindableWith_congr (t := t) h]
  | .basic _, h | .dep _, h | .record _, h | .sugar _ _, h | .arr _, h | .fn _ _, h | .enum _, h => by
    simp only [tyBindableWith]; exact tyHeadOk_congr E h

theorem all_congr {α : Type} {p q : α → Bool} {l : List α} (h : ∀ x ∈ l, p x = q x) : l.all p = l.all q := by
  induction l with
  | nil => rfl
  | cons a l ih => simp only [List.all_cons, h a List.mem_cons_self, ih fun x hx => h x (List.mem_cons_of_mem _ hx)]

/-- More fuel than the rank makes no difference. -/
theorem classBindableF_stable (hw : E.Wellfounded) : ∀ (n m i : Nat), E.argRank i < n → E.argRank i < m →
    classBindableF E n i = classBindableF E m i
  | 0, _, _, h, _ => absurd h (Nat.not_lt_zero _)
  | _ + 1, 0, _, _, h => absurd h (Nat.not_lt_zero _)
  | n + 1, m + 1, i, hn, hm => by
    unfold classBindableF
    have key : (E.cls i).functionArgTypes.all (tyBindableWith E (classBindableF E n)) =
        (E.cls i).functionArgTypes.all (tyBindableWith E (classBindableF E m)) := by
      apply all_congr
      intro t ht
      apply tyBindableWith_congr
      intro j hj
      have := hw.args i t (List.mem_append_right _ ht) j hj
      exact classBindableF_stable hw n m j (by omega) (by omega)
    simp only [key]

theorem classBindableF_args (hw : E.Wellfounded) (i : Nat) : (E.cls i).functionArgTypes.all (tyBindableWith E (classBindableF E (E.argRank i))) =
    (E.cls i).functionArgTypes.all (tyBindable E) := by
  apply all_congr
  intro t ht
  apply tyBindableWith_congr
  intro j hj
  have := hw.args i t (List.mem_append_right _ ht) j hj
  exact classBindableF_stable E hw _ _ j this (by omega)

/-- The results without tables. -/
def fresh : Call → Result
  | .standard s => .name (stdName E s)
  | .simplify s => .name (E.simplify s)
  | .cls i => .decision (classBindable E i)
  | .fn F => .decision (functionBindable E F)

theorem eval_callStandard (s : Str) : (callStandard s).eval (fresh E) = stdName E s := by
  simp only [callStandard, Ask.eval, fresh, Result.str]
theorem eval_callClass (i : Nat) : (callClass i).eval (fresh E) = classBindable E i := by
  simp only [callClass, Ask.eval, fresh, Result.bool]

theorem eval_banned (q : Str) : (bannedCalls q).eval (fresh E) = bannedDecl E q := by
  simp only [bannedCalls, bannedDecl, Ask.eval_bind, eval_callStandard, Ask.eval]
theorem eval_builtin (q : Str) : (builtinCalls E q).eval (fresh E) = builtinDecl E q := by
  simp only [builtinCalls, builtinDecl, Ask.eval_bind, eval_callStandard, Ask.eval]

theorem eval_tag (t : Ty) : (tagCalls E t).eval (fresh E) = ((match t.asRecord with
      | some i => classBindable E i && !hidden (E.cls i).access
      | none => true) &&
    (match t.asEnum with
      | some i => !hidden (E.enumD i).access
      | none => true)) := by
  unfold tagCalls
  cases hr : t.asRecord with
  | some i =>
    have : t.asEnum = none := by
      unfold Ty.asRecord at hr
      unfold Ty.asEnum
      split at hr
      · rename_i h; rw [h]
      · cases hr
    rw [this]
    simp only [Ask.eval_bind, eval_callClass, Ask.eval, Bool.and_true]
  | none => cases t.asEnum <;> simp [Ask.eval]

theorem tyHeadOk_eq (t : Ty) : tyHeadOk E (classBindable E) t = (tyFormOk t && (tagCalls E t).eval (fresh E)) := by
  rw [eval_tag]
  unfold tyHeadOk tyFormOk
  simp only [Bool.and_assoc]
  rfl

theorem eval_ty : ∀ t : Ty, (tyCalls E t).eval (fresh E) = tyBindable E t
  | .const t => by rw [tyCalls, eval_ty t]; simp only [tyBindable, tyBindableWith]
  | .ptr p => by
    have ih := eval_ty p
    unfold tyBindable at ih ⊢
    rw [tyCalls, tyBindableWith, tyHeadOk_eq]
    cases p.isPointer
    · cases p.isArray
      · simp only [Bool.false_eq_true, if_false, Ask.eval_bind, eval_callStandard, refusedPointee, Bool.not_false, Bool.and_true]
        generalize (_ || _ : Bool) = x
        cases x
        · simp only [Bool.false_eq_true, if_false]
          rw [Ask.eval_both, Ask.eval_bind, ih]
          simp only [Bool.not_false, Bool.and_true, Ask.eval]
          cases tyFormOk p.ptr <;> cases tyBindableWith E (classBindable E) p <;> simp
        · simp [Ask.eval]
      · simp [Ask.eval]
    · simp [Ask.eval]
  | .lref p => by
    have ih := eval_ty p
    unfold tyBindable at ih ⊢
    rw [tyCalls, tyBindableWith, tyHeadOk_eq]
    simp only [Ask.eval_bind, eval_callStandard, refusedReferent]
    generalize (_ || _ : Bool) = x
    cases x
    · simp only [Bool.false_eq_true, if_false]
      rw [Ask.eval_both, Ask.eval_bind, ih]
      simp only [Bool.not_false, Bool.and_true, Ask.eval]
      cases tyFormOk p.lref <;> cases tyBindableWith E (classBindable E) p <;> simp
    · simp [Ask.eval]
  | .rref p => by
    have ih := eval_ty p
    unfold tyBindable at ih ⊢
    rw [tyCalls, tyBindableWith, tyHeadOk_eq]
    simp only [Ask.eval_bind, eval_callStandard, refusedReferent]
    generalize (_ || _ : Bool) = x
    cases x
    · simp only [Bool.false_eq_true, if_false]
      rw [Ask.eval_both, Ask.eval_bind, ih]
      simp only [Bool.not_false, Bool.and_true, Ask.eval]
      cases tyFormOk p.rref <;> cases tyBindableWith E (classBindable E) p <;> simp
    · simp [Ask.eval]
  | .basic _ | .dep _ | .record _ | .sugar _ _ | .arr _ | .fn _ _ | .enum _ => by
    simp only [tyCalls, tyBindable, tyBindableWith, Ask.eval_both, tyHeadOk_eq, Ask.eval]

theorem eval_all (ts : List Ty) : (allCalls E ts).eval (fresh E) = ts.all (tyBindable E) := by
  induction ts with
  | nil => rfl
  | cons t ts ih => rw [allCalls, Ask.eval_and, eval_ty, ih, List.all_cons]

theorem eval_params (ts : List Ty) : (paramCalls E ts).eval (fresh E) = ts.all (tyBindable E) := by
  induction ts with
  | nil => rfl
  | cons t ts ih => rw [paramCalls, Ask.eval_both, eval_ty, ih, List.all_cons]

theorem eval_class (hw : E.Wellfounded) (i : Nat) : (classCalls E i).eval (fresh E) = classBindable E i := by
  unfold classCalls classBindable classBindableF
  simp only [classBindableF_args E hw i]
  generalize (Str.rfind c!")" (E.cls i).qname).isSome = z
  generalize hd : hidden (E.cls i).access = hd'
  by_cases h1 : (E.cls i).inAnonymousNamespace = true
  · simp only [h1, if_true, Ask.eval]
  by_cases h2 : (!(E.cls i).hasNameForLinkage && !(E.cls i).isMember) = true
  · simp only [h1, h2, if_true, Bool.false_eq_true, if_false, Ask.eval]
  by_cases h3 : (z && (E.cls i).hasNameForLinkage) = true
  · simp only [h1, h2, h3, if_true, Bool.false_eq_true, if_false, Ask.eval]
  by_cases h4 : (z && !(E.cls i).hasNameForLinkage && !(E.cls i).isAnonymous) = true
  · simp only [h1, h2, h3, h4, if_true, Bool.false_eq_true, if_false, Ask.eval]
  by_cases h5 : (E.cls i).isDependent = true
  · simp only [h1, h2, h3, h4, h5, if_true, Bool.false_eq_true, if_false, Ask.eval]
  cases hd'
  case true => simp only [h1, h2, h3, h4, h5, if_true, Bool.false_eq_true, if_false, Ask.eval]
  simp only [h1, h2, h3, h4, h5, Bool.false_eq_true, if_false]
  rw [Ask.eval_and, Ask.eval_bind, eval_banned]
  simp only [Ask.eval]
  cases (E.cls i).isComplete
  · cases (E.cls i).isSpecialization
    · simp [Ask.eval]
    · by_cases hf : (E.cls i).qname = c!"std::function"
      · simp only [hf, if_true, eval_all, Bool.false_eq_true, if_false, Bool.not_false, Bool.true_and]
        cases (E.cls i).functionArgTypes.all (tyBindable E) <;> simp
      · simp only [hf, if_true, Bool.false_eq_true, if_false, Bool.not_false, Bool.true_and]
        cases (E.cls i).hasInstantiationPoint
        · simp only [eval_builtin, Bool.false_eq_true, if_false, Bool.false_or]
          cases builtinDecl E (E.cls i).qname <;> simp
        · simp [Ask.eval]
  · simp [Ask.eval]

theorem eval_function (F : Func) : (functionCalls E F).eval (fresh E) = functionBindable E F := by
  have hp : (F.params.map fun p => p.ty.canon).all (tyBindable E) = F.params.all fun p => tyBindable E p.ty.canon := by
    rw [List.all_map]; rfl
  unfold functionCalls functionBindable
  cases parenthesisOk F.qname
  · simp [Ask.eval]
  · cases F.isOperator && (F.method.isNone || (pythonOperator F.name F.params.length).length == 0)
    · simp only [Bool.not_true, Bool.false_eq_true, if_false, Ask.eval_bind, Ask.eval_both, eval_ty, eval_params, hp]
      cases F.isDeleted <;> cases F.templated != TemplatedKind.functionTemplate <;> cases F.isConversion <;> cases tyBindable E F.ret <;>
        cases F.params.all (fun p => tyBindable E p.ty.canon) <;> simp [Ask.eval, Ask.eval_bind, eval_banned]
    · simp [Ask.eval]

theorem eval_standard (s : Str) : (standardNameCalls s).eval (fresh E) = stdName E s := by
  unfold standardNameCalls stdName standardName
  simp only
  split <;> rfl

theorem rawCalls_eval (hw : E.Wellfounded) (k : Call) : (rawCalls E k).eval (fresh E) = fresh E k := by
  cases k with
  | standard s => simp only [rawCalls, Ask.eval_bind, eval_standard, Ask.eval, fresh]
  | simplify s => rfl
  | cls i => simp only [rawCalls, Ask.eval_bind, eval_class E hw, Ask.eval, fresh]
  | fn F => simp only [rawCalls, Ask.eval_bind, eval_function, Ask.eval, fresh]

/-! ## Calls end -/

/-- The rank of the class a type leads to. -/
def tyRank (t : Ty) : Nat := match t.target with | some j => E.argRank j + 1 | none => 0

/-- Calls only go to calls of lower rank. -/
def callRank : Call → Nat
  | .simplify _ => 0
  | .standard _ => 1
  | .cls i => 2 + E.argRank i
  | .fn F => 2 + ((F.ret :: F.params.map fun p => p.ty.canon).map (tyRank E)).sum

theorem calls_tag {P : Call → Prop} {t : Ty} (hc : ∀ j, t.target = some j → P (.cls j)) : (tagCalls E t).Calls P := by
  unfold tagCalls
  split
  · rename_i i h
    exact Ask.calls_bind ⟨hc _ (target_of_asRecord h), fun _ => trivial⟩ fun _ => trivial
  · split <;> trivial

theorem calls_ty {P : Call → Prop} (hs : ∀ s, P (.standard s)) : ∀ {t : Ty}, (∀ j, t.target = some j → P (.cls j)) → (tyCalls E t).Calls P
  | .const t, h => by rw [tyCalls]; exact calls_ty hs (t := t) h
  | .ptr p, h => by
    rw [tyCalls]
    split
    · trivial
    split
    · trivial
    refine Ask.calls_bind ⟨hs _, fun _ => trivial⟩ fun n => ?_
    split
    · trivial
    · exact Ask.calls_both (Ask.calls_bind (calls_ty hs (t := p) h) fun _ => trivial) (calls_tag E h)
  | .lref p, h | .rref p, h => by
    rw [tyCalls]
    refine Ask.calls_bind ⟨hs _, fun _ => trivial⟩ fun n => ?_
    split
    · trivial
    · exact Ask.calls_both (Ask.calls_bind (calls_ty hs (t := p) h) fun _ => trivial) (calls_tag E h)
  | .basic _, h | .dep _, h | .record _, h | .sugar _ _, h | .arr _, h | .fn _ _, h | .enum _, h => by
    simp only [tyCalls]
    exact Ask.calls_both trivial (calls_tag E h)

theorem calls_all {P : Call → Prop} (hs : ∀ s, P (.standard s)) {ts : List Ty} (h : ∀ t ∈ ts, ∀ j, t.target = some j → P (.cls j)) :
    (allCalls E ts).Calls P ∧ (paramCalls E ts).Calls P := by
  induction ts with
  | nil => exact ⟨trivial, trivial⟩
  | cons t ts ih =>
    have ih := ih fun t ht => h t (List.mem_cons_of_mem _ ht)
    have ht := calls_ty E hs (h t List.mem_cons_self)
    exact ⟨Ask.calls_and ht ih.1, Ask.calls_both ht ih.2⟩

theorem calls_ite {α : Type} {P : Call → Prop} {c : Prop} [Decidable c] {a b : Calls α} (ha : a.Calls P) (hb : b.Calls P) :
    (if c then a else b).Calls P := by
  split
  · exact ha
  · exact hb

theorem calls_banned {P : Call → Prop} (hs : ∀ s, P (.standard s)) (q : Str) : (bannedCalls q).Calls P :=
  Ask.calls_bind ⟨hs _, fun _ => trivial⟩ fun _ => trivial

theorem le_sum {l : List Nat} {n : Nat} (h : n ∈ l) : n ≤ l.sum := by
  induction l with
  | nil => cases h
  | cons a l ih =>
    rw [List.sum_cons]
    rcases List.mem_cons.1 h with rfl | h
    · omega
    · have := ih h; omega

theorem rawCalls_rank (hw : E.Wellfounded) (k : Call) : (rawCalls E k).Calls fun k' => callRank E k' < callRank E k := by
  cases k with
  | standard s =>
    refine Ask.calls_bind ?_ fun _ => True.intro
    unfold standardNameCalls
    generalize applyNameMap s = r
    have hr : callRank E (.simplify (r.drop 5)) < callRank E (.standard s) := Nat.zero_lt_one
    exact calls_ite ⟨hr, fun _ => True.intro⟩ True.intro
  | simplify s => exact True.intro
  | cls i =>
    have hs : ∀ s, callRank E (.standard s) < callRank E (.cls i) := fun s => by simp only [callRank]; omega
    refine Ask.calls_bind ?_ fun _ => True.intro
    unfold classCalls
    refine calls_ite True.intro (calls_ite True.intro (calls_ite True.intro (calls_ite True.intro (calls_ite True.intro (calls_ite True.intro ?_)))))
    refine Ask.calls_and (calls_ite True.intro (calls_ite (calls_ite ?_ (calls_ite True.intro ?_)) True.intro))
      (Ask.calls_bind (calls_banned hs _) fun _ => True.intro)
    · refine (calls_all E hs fun t ht j hj => ?_).1
      have := hw.args i t (List.mem_append_right _ ht) j hj
      simp only [callRank]
      omega
    · exact Ask.calls_bind ⟨hs _, fun _ => True.intro⟩ fun _ => True.intro
  | fn F =>
    have hs : ∀ s, callRank E (.standard s) < callRank E (.fn F) := fun s => by simp only [callRank]; omega
    have ht : ∀ t ∈ F.ret :: F.params.map (fun p => p.ty.canon), ∀ j, t.target = some j → callRank E (.cls j) < callRank E (.fn F) := by
      intro t ht j hj
      have := le_sum (List.mem_map_of_mem (f := tyRank E) ht)
      simp only [callRank]
      simp only [tyRank, hj] at this
      omega
    refine Ask.calls_bind ?_ fun _ => True.intro
    unfold functionCalls
    refine calls_ite True.intro (calls_ite True.intro ?_)
    refine Ask.calls_bind (Ask.calls_both (calls_ty E hs (ht _ List.mem_cons_self))
      (calls_all E hs fun t h => ht t (List.mem_cons_of_mem _ h)).2) fun b => ?_
    exact calls_ite (Ask.calls_bind (calls_banned hs _) fun _ => True.intro) True.intro

end Binder
