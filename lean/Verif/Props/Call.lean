import Verif.Props.Constructor
import Verif.Lemmas.Call

/-!
# C91: what a Python call of a bound function does
-/

namespace Binder

open Cxx Spec

variable (E : Env)

/-- The function that pybind11 makes of a `def` statement for `F`. -/
def Spec.Def.overload (F : Func) (x : Def) : Overload (Option Param) where
  names := if x.keywords = [] then [] else (if F.isInstance then [c!"self"] else []) ++ x.keywords
  params := (if F.isInstance then [none] else []) ++ (F.params.take x.keywords.length).map some

/-- The name by which C++ code calls `F`: qualified, with or without template arguments, or, on an object, unqualified. -/
def CalledAs (F : Func) (parent : Option Nat) (f : Str) : Prop :=
  f = calledName E F parent ++ functionTemplateText E F ∨ f = calledName E F parent ∨ F.isInstance = true ∧ f = F.name

theorem lambda_names (ps : List Param) (k : Nat) (hk : k ≤ ps.length) :
    ((ps.take k).mapIdx fun i p => lambdaParamOf E p i).map (·.2) = argNames k := by
  apply List.ext_getElem
  · simp [argNames]; omega
  · intro i h1 h2
    simp [lambdaParamOf, argNames]

/-- What the function given to `def` calls. -/
theorem forwards_does {V : Type} {F : Func} {parent : Option Nat} {lam : Bool} {k : Nat} {callable : Str} (hk : k ≤ F.params.length)
    (h : Forwards E F parent lam k callable) (obj vs : List V) (ho : obj.length = if F.isInstance then 1 else 0) (hv : vs.length = k) :
    ∃ f, CalledAs E F parent f ∧ Does callable (obj ++ vs) ⟨obj.head?, f, vs⟩ := by
  by_cases hc : k = F.params.length ∧ lam = false ∧ F.isVariadic = false
  · obtain ⟨p, rfl, _, h2, _, h4, h5⟩ := h.direct hc.1 hc.2.1 hc.2.2
    refine ⟨p.target, .inl h4, ?_⟩
    have hl : p.types.length = vs.length := by rw [h2, List.length_map, hv, hc.1]
    cases hm : F.method with
    | none =>
      simp only [hm] at h5
      simp only [Func.isInstance, hm] at ho
      obtain rfl : obj = [] := List.length_eq_zero_iff.1 (by simpa using ho)
      exact .pointer h5 hl
    | some m =>
      simp only [hm] at h5
      simp only [Func.isInstance, hm] at ho
      cases hs : m.isStatic with
      | true =>
        rw [hs] at h5 ho
        obtain rfl : obj = [] := List.length_eq_zero_iff.1 (by simpa using ho)
        exact .pointer h5 hl
      | false =>
        rw [hs] at h5 ho
        match obj, ho with
        | [o], _ => exact .memberPointer (by rw [h5]; simp) hl
  · have hc' : k < F.params.length ∨ lam = true ∨ F.isVariadic = true := by
      rcases Nat.lt_or_ge k F.params.length with h1 | h1
      · exact .inl h1
      · cases hl : lam with
        | true => exact .inr (.inl rfl)
        | false => cases hv : F.isVariadic with
          | true => exact .inr (.inr rfl)
          | false => exact absurd ⟨by omega, hl, hv⟩ hc
    obtain ⟨l, rfl, _, ha, ps, hps, h5⟩ := h.lambda hc'
    have hn : ps.map (·.2) = argNames k := by rw [hps]; exact lambda_names E F.params k hk
    have hpl : ps.length = k := by rw [hps]; simp; omega
    have hargs : (argNames k).map (((argNames k).zip vs).lookup ·) = vs.map some :=
      lookups (argNames_nodup k) (by rw [hv]; simp [argNames])
    have free : obj = [] → l.callee = calledName E F parent → l.params = ps → ∃ f, CalledAs E F parent f ∧ Does l.text (obj ++ vs) ⟨obj.head?, f, vs⟩ := by
      rintro rfl h1 h2
      refine ⟨l.callee, .inr (.inl h1), .lambda (by rw [h2, hpl]; exact hv.symm) ?_⟩
      rw [ha, h2, hn]; exact hargs
    cases hm : F.method with
    | none =>
      simp only [hm] at h5
      simp only [Func.isInstance, hm] at ho
      exact free (List.length_eq_zero_iff.1 (by simpa using ho)) h5.1 h5.2
    | some m =>
      simp only [hm] at h5
      cases hs : m.isStatic with
      | true =>
        simp only [Func.isInstance, hm, hs] at ho
        rw [hs] at h5
        exact free (List.length_eq_zero_iff.1 (by simpa using ho)) h5.1 h5.2
      | false =>
        have hi : F.isInstance = true := by simp [Func.isInstance, hm, hs]
        rw [hi] at ho
        rw [hs] at h5
        simp only [Bool.false_eq_true, if_false] at h5
        match obj, ho with
        | [o], _ =>
          refine ⟨F.name, .inr (.inr ⟨hi, rfl⟩), .memberLambda (by rw [h5.2]; simp [hpl, hv]) h5.1 ?_ ?_⟩
          · rw [h5.2]; simp
          · rw [ha, h5.2, List.map_cons, hn, ← hargs]
            apply List.map_congr_left
            intro a hm
            show List.lookup a (((c!"o") :: argNames k).zip (o :: vs)) = _
            rw [List.zip_cons_cons, List.lookup_cons, beq_false_of_ne (fun e : a = c!"o" => o_not_arg k (e ▸ hm))]

/-- The call gives arguments to the first parameters of `F`, and leaves out only parameters with default arguments. -/
structure Suits (F : Func) {V : Type} (c : PyCall V) (vs : List V) : Prop where
  gives : Gives (F.params.map (·.name)) c vs
  enough : ∀ p ∈ F.params.drop vs.length, p.hasDefault = true
  differ : NamesDiffer (F.params.map (·.name))

/-- Two kinds of calls are excluded: no argument may be left out if a parameter is a function, and no argument of a method with the name
`self` can be given by keyword. -/
structure Possible (F : Func) {V : Type} (c : PyCall V) (vs : List V) : Prop where
  suits : Suits F c vs
  functions : vs.length = F.params.length ∨ ¬ ∃ p ∈ F.params, IsFunction p.ty.canon
  self : F.isInstance = true → c!"self" ∉ c.kw.map (·.1)

/-- In C++, all parameters after one with a default argument have default arguments. -/
def DefaultsLast (ps : List Param) : Prop := ps.Pairwise fun a b => a.hasDefault = true → b.hasDefault = true

theorem Possible.enough {F : Func} {V : Type} {c : PyCall V} {vs : List V} (h : Possible F c vs) : firstArity F ≤ vs.length := by
  obtain ⟨h1, h2, h3⟩ := (minArity_iff F _).2 rfl
  rcases h.functions with e | e
  · omega
  · rcases Nat.lt_or_ge vs.length (firstArity F) with hlt | hge
    · have := (h3 e).1 vs.length (by omega) hlt
      have hm : F.params[vs.length]'(by omega) ∈ F.params.drop vs.length := by
        rw [List.drop_eq_getElem_cons (by omega)]; exact List.mem_cons_self
      rw [h.suits.enough _ hm] at this; cases this
    · exact hge

theorem left_out {F : Func} (hd : DefaultsLast F.params) {k : Nat} (hk : firstArity F ≤ k) : ∀ p ∈ F.params.drop k, p.hasDefault = true := by
  intro p hp
  obtain ⟨h1, h2, h3⟩ := (minArity_iff F _).2 rfl
  obtain ⟨i, hi, rfl⟩ := List.getElem_of_mem hp
  rw [List.length_drop] at hi
  by_cases e : ∃ p ∈ F.params, IsFunction p.ty.canon
  · have := h2 e; omega
  · have hf := (h3 e).2 (by omega)
    rw [List.getElem_drop]
    rcases Nat.lt_or_ge (firstArity F) (k + i) with hlt | hge
    · exact List.pairwise_iff_getElem.1 hd _ _ _ _ hlt hf
    · have : firstArity F = k + i := by omega
      simpa only [this] using hf

theorem overload_params (F : Func) (k : Nat) (parent : Option Nat) (lam : Bool) (hk : k ≤ F.params.length) :
    ((overloadDef E F k parent lam).overload F).params = (if F.isInstance then [none] else []) ++ (F.params.take k).map some := by
  simp only [Spec.Def.overload, overloadDef, List.length_map, List.length_take, Nat.min_eq_left hk]

theorem overload_eq (F : Func) (k : Nat) (parent : Option Nat) (lam : Bool) (hk : k ≤ F.params.length) :
    (overloadDef E F k parent lam).overload F =
      ⟨if (F.params.take k).map (·.name) = [] then [] else (if F.isInstance then [c!"self"] else []) ++ (F.params.take k).map (·.name),
       (if F.isInstance then [none] else []) ++ (F.params.take k).map some⟩ := by
  simp only [Spec.Def.overload, overloadDef, List.length_map, List.length_take, Nat.min_eq_left hk]
  congr

theorem gives_take {V : Type} {names : List Str} {c : PyCall V} {vs : List V} (hl : vs.length ≤ names.length) :
    ((names.take vs.length).zip vs).drop c.pos.length = (names.zip vs).drop c.pos.length := by
  congr 1
  induction names generalizing vs with
  | nil => simp
  | cons x l ih => cases vs with
    | nil => simp
    | cons y b => simp only [List.length_cons, Nat.add_le_add_iff_right] at hl; simp only [List.zip_cons_cons, List.length_cons, List.take_succ_cons]; rw [ih hl]

theorem zip_take_params {V : Type} (ps : List Param) (vs : List V) (h : vs.length ≤ ps.length) :
    ((ps.take vs.length).map some).zip vs = (ps.map some).zip vs := by
  induction ps generalizing vs with
  | nil => simp
  | cons x l ih => cases vs with
    | nil => simp
    | cons y b => simp only [List.length_cons, Nat.add_le_add_iff_right] at h; simp only [List.zip_cons_cons, List.length_cons, List.take_succ_cons, List.map_cons]; rw [ih b h]

/-- The overload for the right number of arguments, and only that, takes them. -/
theorem overload_tries {V : Type} {can : Bool → Option Param → V → Bool} {convert : Bool} {obj : List V} {c : PyCall V} (hs : c.Sane) {F : Func}
    {k : Nat} {parent : Option Nat} {lam : Bool} (hk : k ≤ F.params.length) (ho : obj.length = if F.isInstance then 1 else 0) {ws : List V}
    (h : ((overloadDef E F k parent lam).overload F).tries can convert ⟨obj ++ c.pos, c.kw⟩ = some ws) :
    ∃ vs, ws = obj ++ vs ∧ vs.length = k ∧ Gives (F.params.map (·.name)) c vs ∧ (∀ y ∈ (F.params.map some).zip vs, can convert y.1 y.2 = true) := by
  unfold Overload.tries at h
  cases ha : ((overloadDef E F k parent lam).overload F).arguments ⟨obj ++ c.pos, c.kw⟩ with
  | none => rw [ha] at h; cases h
  | some ws' =>
    simp only [ha] at h
    split at h
    · rename_i hall
      cases h
      rw [overload_eq E F k parent lam hk] at ha
      have hlen : ((F.params.take k).map (·.name)).length = k := by simp; omega
      obtain ⟨vs, rfl, h1, h2, h3⟩ := arguments_sound (by rw [ho]; split <;> rfl) (by simp only [List.length_append, List.length_map]; split <;> rfl) hs.1 ha
      rw [hlen] at h1
      refine ⟨vs, rfl, h1, ⟨by simp; omega, h2, ?_⟩, ?_⟩
      · subst h1
        rw [List.map_take, gives_take (by simp; omega)] at h3; exact h3
      · intro y hy
        rw [List.all_eq_true] at hall
        apply hall
        rw [overload_params E F k parent lam hk]
        subst h1
        rw [← zip_take_params _ _ hk] at hy
        rw [List.zip_append (by rw [ho]; split <;> rfl)]
        exact List.mem_append_right _ hy
    · cases h

theorem overload_takes {V : Type} {can : Bool → Option Param → V → Bool} {convert : Bool} {obj : List V} {c : PyCall V} (hs : c.Sane) {F : Func}
    {parent : Option Nat} {lam : Bool} (ho : obj.length = if F.isInstance then 1 else 0) {vs : List V} (h : Possible F c vs)
    (hc : ∀ y ∈ (F.params.map some).zip vs, can convert y.1 y.2 = true) (hoc : ∀ o ∈ obj, can convert none o = true) :
    ((overloadDef E F vs.length parent lam).overload F).tries can convert ⟨obj ++ c.pos, c.kw⟩ = some (obj ++ vs) := by
  have hk : vs.length ≤ F.params.length := by simpa using h.suits.gives.1
  have ha : ((overloadDef E F vs.length parent lam).overload F).arguments ⟨obj ++ c.pos, c.kw⟩ = some (obj ++ vs) := by
    rw [overload_eq E F _ parent lam hk]
    apply arguments_complete
    · rw [ho]; split <;> rfl
    · simp only [List.length_append, List.length_map]; split <;> rfl
    · exact hs
    · rw [List.map_take]; exact h.suits.differ.sublist (List.take_sublist _ _)
    · intro n hn
      cases hi : F.isInstance with
      | false => rw [hi] at hn; cases hn
      | true =>
        rw [hi] at hn
        obtain rfl : n = c!"self" := by simpa using hn
        exact h.self hi
    · simp; omega
    · exact h.suits.gives.2.1
    · rw [List.map_take, gives_take (by simp; omega)]; exact h.suits.gives.2.2
  unfold Overload.tries
  simp only [ha]
  rw [if_pos]
  rw [List.all_eq_true, overload_params E F _ parent lam hk, List.zip_append (by rw [ho]; split <;> rfl), zip_take_params _ _ hk]
  intro y hy
  rcases List.mem_append.1 hy with hy | hy
  · have h1 := List.of_mem_zip hy
    have : y.1 = none := by
      have := h1.1
      split at this
      · simpa using this
      · cases this
    rw [this]; exact hoc _ h1.2
  · exact hc y hy

/-- The `def` statements for a function. -/
def bindingDefs (b : Binding) : List Def := (arities (firstArity b.F) b.F.params.length).map fun k => overloadDef E b.F k b.parent b.lam

theorem bindingDefs_call :
    ∀ (Bs : List Binding) (V : Type) (can : Bool → Option Param → V → Bool) (obj : List V) (c : PyCall V), c.Sane →
        (∀ b ∈ Bs, obj.length = if b.F.isInstance then 1 else 0) → (∀ p v, can false p v = true → can true p v = true) →
        (∀ o ∈ obj, can false none o = true) →
        let reached := dispatch can (Bs.flatMap fun b => (bindingDefs E b).map fun x => ((b, x), x.overload b.F)) ⟨obj ++ c.pos, c.kw⟩
        (∀ b x ws, reached = some ((b, x), ws) → b ∈ Bs ∧ x ∈ bindingDefs E b ∧ ∃ vs f, ws = obj ++ vs ∧
          Gives (b.F.params.map (·.name)) c vs ∧ (DefaultsLast b.F.params → ∀ p ∈ b.F.params.drop vs.length, p.hasDefault = true) ∧
          CalledAs E b.F b.parent f ∧ Does x.callable ws ⟨obj.head?, f, vs⟩ ∧
          (∀ y ∈ (b.F.params.map some).zip vs, can true y.1 y.2 = true) ∧
          ((∃ y ∈ (b.F.params.map some).zip vs, can false y.1 y.2 = false) → ∀ g ∈ Bs, ∀ us, Possible g.F c us →
            ∃ y ∈ (g.F.params.map some).zip us, can false y.1 y.2 = false)) ∧
        (∀ b ∈ Bs, ∀ vs, Possible b.F c vs → (∀ y ∈ (b.F.params.map some).zip vs, can true y.1 y.2 = true) →
          reached.isSome = true ∧ (Bs = [b] → ∃ x, reached = some ((b, x), obj ++ vs))) := by
  unfold bindingDefs
  intro Bs V can obj c hs ho hmono hobj
  have hkl : ∀ F k, k ∈ arities (firstArity F) F.params.length → firstArity F ≤ k ∧ k ≤ F.params.length := by
    intro F k hk
    simp only [arities, List.mem_range'_1] at hk; omega
  have harity : ∀ F vs, Possible F c vs → vs.length ∈ arities (firstArity F) F.params.length := by
    intro F vs h
    have hle := h.enough
    have : vs.length ≤ F.params.length := by simpa using h.suits.gives.1
    simp only [arities, List.mem_range'_1]; omega
  generalize hch : (Bs.flatMap fun b => ((arities (firstArity b.F) b.F.params.length).map fun k => overloadDef E b.F k b.parent b.lam).map
    fun x => ((b, x), x.overload b.F)) = chain
  have hmem : ∀ b x o, ((b, x), o) ∈ chain ↔ b ∈ Bs ∧ ∃ k ∈ arities (firstArity b.F) b.F.params.length, x = overloadDef E b.F k b.parent b.lam ∧ o = x.overload b.F := by
    intro b x o
    subst hch
    simp only [List.mem_flatMap, List.mem_map]
    constructor
    · rintro ⟨G, hG, y, ⟨k, hk, rfl⟩, e⟩
      simp only [Prod.mk.injEq] at e
      obtain ⟨⟨rfl, rfl⟩, rfl⟩ := e
      exact ⟨hG, k, hk, rfl, rfl⟩
    · rintro ⟨hF, k, hk, rfl, rfl⟩
      exact ⟨b, hF, _, ⟨k, hk, rfl⟩, rfl⟩
  have sound : ∀ b x ws, dispatch can chain ⟨obj ++ c.pos, c.kw⟩ = some ((b, x), ws) → b ∈ Bs ∧ ∃ k, k ∈ arities (firstArity b.F) b.F.params.length ∧
      x = overloadDef E b.F k b.parent b.lam ∧ ∃ vs, ws = obj ++ vs ∧ vs.length = k ∧ Gives (b.F.params.map (·.name)) c vs ∧
      (∀ y ∈ (b.F.params.map some).zip vs, can true y.1 y.2 = true) ∧
      ((∃ y ∈ (b.F.params.map some).zip vs, can false y.1 y.2 = false) → ∀ g ∈ Bs, ∀ us, Possible g.F c us →
            ∃ y ∈ (g.F.params.map some).zip us, can false y.1 y.2 = false) := by
    intro b x ws h
    obtain ⟨o, convert, h1, h2, h3⟩ := dispatch_sound h
    obtain ⟨hF, k, hk, rfl, rfl⟩ := (hmem b x o).1 h1
    obtain ⟨vs, rfl, hv, hg, hcan⟩ := overload_tries E hs (hkl b.F k hk).2 (ho b hF) h2
    refine ⟨hF, k, hk, rfl, vs, rfl, hv, hg, ?_, ?_⟩
    · cases convert with
      | true => exact hcan
      | false => exact fun y hy => hmono _ _ (hcan y hy)
    · rintro ⟨y, hy, hyf⟩ G hG us hsu
      cases hex : ((G.F.params.map some).zip us).all (fun y => can false y.1 y.2) with
      | false =>
        obtain ⟨z, hz, hzf⟩ := List.all_eq_false.1 hex
        exact ⟨z, hz, by simpa using hzf⟩
      | true =>
        exfalso
        rw [List.all_eq_true] at hex
        have ht := overload_takes E (parent := G.parent) (lam := G.lam) hs (ho G hG) hsu hex hobj
        have hGm := (hmem G _ _).2 ⟨hG, us.length, harity G.F us hsu, rfl, rfl⟩
        cases convert with
        | false => rw [hcan y hy] at hyf; cases hyf
        | true =>
          by_cases hl : 1 < chain.length
          · have := h3 rfl hl _ hGm
            rw [ht] at this; cases this
          · obtain ⟨a, ha⟩ : ∃ a, chain = [a] := List.length_eq_one_iff.1 (by have := List.length_pos_of_mem h1; omega)
            rw [ha, List.mem_singleton] at h1 hGm
            rw [← h1] at hGm
            have hGF : G = b := congrArg (fun z => z.1.1) hGm
            subst hGF
            have := gives_unique hs.1 hg hsu.suits.gives
            subst this
            rw [hex y hy] at hyf; cases hyf
  refine ⟨?_, ?_⟩
  · intro b x ws h
    obtain ⟨hF, k, hk, rfl, vs, rfl, hv, hg, hc1, hc2⟩ := sound b x ws h
    obtain ⟨f, hf, hdoes⟩ := forwards_does E (hkl b.F k hk).2 (forwards E b.F b.parent b.lam k (hkl b.F k hk).2) obj vs (ho b hF) hv
    exact ⟨hF, List.mem_map.2 ⟨k, hk, rfl⟩, vs, f, rfl, hg, fun hd => left_out hd (by rw [hv]; exact (hkl b.F k hk).1), hf, hdoes, hc1, hc2⟩
  · intro b hF vs hsu hc1
    have ht := overload_takes E (parent := b.parent) (lam := b.lam) hs (ho b hF) hsu hc1 (fun o ho => hmono _ _ (hobj o ho))
    have hm := (hmem b _ _).2 ⟨hF, vs.length, harity b.F vs hsu, rfl, rfl⟩
    have hsome := dispatch_some hm ht
    refine ⟨hsome, ?_⟩
    rintro rfl
    obtain ⟨⟨⟨G, x⟩, ws⟩, hr⟩ := Option.isSome_iff_exists.1 hsome
    obtain ⟨hG, k, hk, _, us, rfl, hv, hg, _⟩ := sound G x ws hr
    obtain rfl : G = b := by simpa using hG
    obtain rfl := gives_unique hs.1 hg hsu.suits.gives
    exact ⟨x, hr⟩

/-- C91. Let functions of one scope have the same Python name, in whatever number and order. If a call reaches one of them, it gets
exactly the arguments of the call, each as the parameter for which it was given; only parameters with default arguments are left out; and if
an argument had to be converted, then every function that suits the call needs a conversion. Every possible call that suits one of the
functions, with arguments of convertible types, is accepted; if there is only this function, it is the one that is reached. Not all calls
are possible, see `C91_self_false`, `C91_function_parameter_false`. -/
theorem C91_call_partial (module : Str) :
    ∃ (comment : Binding → Str) (defs : Binding → List Def),
      (∀ b, bindFunctionText E module b.F b.parent b.lam = comment b ++ ((defs b).map fun x => module ++ x.text ++ c!"\n").flatten) ∧
      (∀ b, ∀ x ∈ defs b, x.pyName = boundName E b.F ∧ x.isStatic = b.F.isStatic) ∧
      ∀ (Bs : List Binding) (V : Type) (can : Bool → Option Param → V → Bool) (obj : List V) (c : PyCall V), c.Sane →
        (∀ b ∈ Bs, obj.length = if b.F.isInstance then 1 else 0) → (∀ p v, can false p v = true → can true p v = true) →
        (∀ o ∈ obj, can false none o = true) →
        let reached := dispatch can (Bs.flatMap fun b => (defs b).map fun x => ((b, x), x.overload b.F)) ⟨obj ++ c.pos, c.kw⟩
        (∀ b x ws, reached = some ((b, x), ws) → b ∈ Bs ∧ x ∈ defs b ∧ ∃ vs f, ws = obj ++ vs ∧
          Gives (b.F.params.map (·.name)) c vs ∧ (DefaultsLast b.F.params → ∀ p ∈ b.F.params.drop vs.length, p.hasDefault = true) ∧
          CalledAs E b.F b.parent f ∧ Does x.callable ws ⟨obj.head?, f, vs⟩ ∧
          (∀ y ∈ (b.F.params.map some).zip vs, can true y.1 y.2 = true) ∧
          ((∃ y ∈ (b.F.params.map some).zip vs, can false y.1 y.2 = false) → ∀ g ∈ Bs, ∀ us, Possible g.F c us →
            ∃ y ∈ (g.F.params.map some).zip us, can false y.1 y.2 = false)) ∧
        (∀ b ∈ Bs, ∀ vs, Possible b.F c vs → (∀ y ∈ (b.F.params.map some).zip vs, can true y.1 y.2 = true) →
          reached.isSome = true ∧ (Bs = [b] → ∃ x, reached = some ((b, x), obj ++ vs))) := by
  refine ⟨_, bindingDefs E, fun b => bindFunctionText_eq E module b.F b.parent b.lam, ?_, bindingDefs_call E⟩
  intro b x hx
  obtain ⟨k, _, rfl⟩ := List.mem_map.1 hx
  exact ⟨rfl, rfl⟩

/-- The hypotheses of C91 are met: for `int A::f(A a, int b = 0)` the call `o.f(b = 1, a = x)` is possible, and so is `o.f(x)`. -/
example : let F := exampleMethod c!"f" false (.basic 0) [⟨c!"a", .record 0, false⟩, ⟨c!"b", .basic 0, true⟩]
    (⟨[], [(c!"b", 1), (c!"a", 5)]⟩ : PyCall Nat).Sane ∧ Possible F (⟨[], [(c!"b", 1), (c!"a", 5)]⟩ : PyCall Nat) [5, 1] ∧
    Possible F (⟨[5], []⟩ : PyCall Nat) [5] ∧ DefaultsLast F.params := by
  have hf : ¬ ∃ p ∈ [⟨c!"a", Ty.record 0, false⟩, (⟨c!"b", .basic 0, true⟩ : Param)], IsFunction p.ty.canon := by
    rintro ⟨p, hp, h⟩
    simp only [List.mem_cons, List.not_mem_nil, or_false] at hp
    rcases hp with rfl | rfl <;> cases h
  refine ⟨⟨by decide, by decide⟩, ⟨⟨⟨by decide, List.nil_prefix, ?_⟩, by decide, ?_⟩, .inl rfl, fun _ => by decide⟩,
    ⟨⟨⟨by decide, List.prefix_refl _, .refl _⟩, by decide, ?_⟩, .inr hf, fun _ => by decide⟩, ?_⟩
  · exact List.Perm.swap _ _ _
  · unfold NamesDiffer; decide
  · unfold NamesDiffer; decide
  · unfold DefaultsLast; decide

/-- C91 is false for a parameter with the name `self`: pybind11 has given that name to the object. For `int A::f(int self)` no function takes
the call `o.f(self = 1)`. -/
theorem C91_self_false : ∃ (F : Func) (x : Def), functionBindable exampleEnv F = true ∧
    bindFunctionText exampleEnv c!"\tcl" F (some 0) false = c!"\tcl" ++ x.text ++ c!"\n" ∧ Suits F (⟨[], [(c!"self", 1)]⟩ : PyCall Nat) [1] ∧
    dispatch (fun _ _ _ => true) [((), x.overload F)] ⟨[0], [(c!"self", 1)]⟩ = none := by
  refine ⟨exampleMethod c!"f" false (.basic 0) [⟨c!"self", .basic 0, false⟩], overloadDef exampleEnv (exampleMethod c!"f" false (.basic 0) [⟨c!"self", .basic 0, false⟩]) 1 (some 0) false, by decide +kernel, ?_, ?_, by decide +kernel⟩
  · decide +kernel
  · exact ⟨⟨by decide, List.nil_prefix, .refl _⟩, by decide, by unfold NamesDiffer; decide⟩

/-- C91 is false for functions that take a function: the default arguments of their other parameters must be given. For
`int A::f(int g(), int n = 0)` no function takes the call `o.f(g)`. -/
theorem C91_function_parameter_false : ∃ (F : Func) (x : Def), functionBindable exampleEnv F = true ∧
    bindFunctionText exampleEnv c!"\tcl" F (some 0) false = c!"\tcl" ++ x.text ++ c!"\n" ∧ Suits F (⟨[1], []⟩ : PyCall Nat) [1] ∧
    dispatch (fun _ _ _ => true) [((), x.overload F)] ⟨[0, 1], []⟩ = none := by
  refine ⟨exampleMethod c!"f" false (.basic 0) [⟨c!"g", .fn (.basic 0) [], false⟩, ⟨c!"n", .basic 0, true⟩],
    overloadDef exampleEnv (exampleMethod c!"f" false (.basic 0) [⟨c!"g", .fn (.basic 0) [], false⟩, ⟨c!"n", .basic 0, true⟩]) 2 (some 0) false, by decide +kernel, ?_, ?_, by decide +kernel⟩
  · decide +kernel
  · exact ⟨⟨by decide, List.prefix_refl _, .refl _⟩, by decide, by unfold NamesDiffer; decide⟩

/-- C91 is false for instances of function templates with default arguments: the binding for all arguments names the instance, but the lambda
for fewer arguments calls the template without its arguments. For `template<class T> int f(int n = sizeof(T))` and `f<A>`, the lambda does not
compile. -/
theorem C91_template_false : ∃ F : Func, functionBindable exampleEnv F = true ∧ bindFunctionText exampleEnv c!"\tM(\"\")" F none false =
    c!"\tM(\"\").def(\"f\", []() -> int { return f(); }, \"\");\n" ++
    c!"\tM(\"\").def(\"f\", (int (*)(int)) &f<A>, \"C++: f(int) --> int\", pybind11::arg(\"n\"));\n" := by
  refine ⟨{ exampleMethod c!"f" false (.basic 0) [⟨c!"n", .basic 0, true⟩] with
    qname := c!"f", method := none, templated := .functionTemplateSpecialization, targs := some [⟨c!"A", .type (.record 0)⟩] }, by decide +kernel, by decide +kernel⟩

/-! ## Constructors -/

/-- The function that pybind11 makes of a constructor statement; the object is not among its parameters. -/
def Spec.Init.overload (t : Func) (x : Init) : Overload Param := ⟨x.keywords, t.params.take x.arity⟩

/-- What a constructor statement creates if it gets the values: objects of the class itself or of a named class. -/
inductive Creates {V : Type} : Init → List V → Option Str → List V → Prop where
  | direct {types ks vs} : types.length = vs.length → Creates (.direct types ks) vs none vs
  | lambda {params args targets ks vs target ws} : params.length = vs.length → target ∈ targets →
      args.map (((params.map (·.2)).zip vs).lookup ·) = ws.map some → Creates (.viaLambda params args targets ks) vs (some target) ws

theorem init_creates {V : Type} (i : Nat) (t : Func) (k : Nat) (hk : k ≤ t.params.length) (vs : List V) (hv : vs.length = k) :
    ∀ T, (T = none ∧ k = t.params.length ∧ t.isVariadic = false ∨ (∃ n ∈ createdClasses E i, T = some n) ∧ (k < t.params.length ∨ t.isVariadic = true)) →
      Creates (ctorInit E i t k) vs T vs := by
  rintro T (⟨rfl, h1, h2⟩ | ⟨⟨n, hn, rfl⟩, h⟩)
  · have : ctorInit E i t k = .direct (t.params.map fun p => stdTy E p.ty) ((t.params.take k).map (·.name)) := by
      unfold ctorInit; rw [if_pos (by simp [h1, h2])]
    rw [this]; exact .direct (by simp; omega)
  · have hc : ¬ (k = t.params.length && !t.isVariadic) = true := by
      rcases h with h | h
      · simp; omega
      · simp [h]
    unfold ctorInit; rw [if_neg hc]
    refine .lambda (by simp; omega) hn ?_
    rw [lambda_names E t.params k hk]
    exact lookups (argNames_nodup k) (by rw [hv]; simp [argNames])

/-- The call of a constructor suits, and keywords are used only where there are keywords (C60). -/
structure Constructs (i : Nat) (t : Func) {V : Type} (c : PyCall V) (vs : List V) : Prop where
  suits : Suits t c vs
  keywords : c.kw = [] ∨ trampoline E i = false ∨ vs.length = t.params.length ∧ t.isVariadic = false

theorem ctorInit_keywords (i : Nat) (t : Func) (k : Nat) :
    (ctorInit E i t k).keywords = if ((E.cls i).isAbstract || trampoline E i) && !(k = t.params.length && !t.isVariadic) then [] else (t.params.take k).map (·.name) := by
  unfold ctorInit
  by_cases hc : (k = t.params.length && !t.isVariadic) = true
  · rw [if_pos hc, if_neg (by simp [hc])]; rfl
  · rw [if_neg hc]
    cases hb : (E.cls i).isAbstract || trampoline E i <;> simp [Init.keywords, hb, hc]

theorem arguments_positional {α V : Type} {params : List α} {c : PyCall V} {ws : List V} :
    Overload.arguments ⟨[], params⟩ c = some ws ↔ c.pos.length = params.length ∧ c.kw = [] ∧ ws = c.pos := by
  unfold Overload.arguments
  simp only [List.length_nil, List.take_nil, List.any_nil, List.drop_nil, takeKeywords]
  split
  · constructor
    · intro h; cases h
    · rintro ⟨h, _⟩; omega
  · split
    · rename_i h
      constructor
      · intro h; cases h
      · rintro ⟨h, _⟩; omega
    · cases hk : c.kw with
      | nil =>
        simp only [Bool.false_eq_true, if_false, List.append_nil, Option.some.injEq, true_and]
        rename_i h1 h2
        constructor
        · rintro rfl; exact ⟨by omega, rfl⟩
        · rintro ⟨_, rfl⟩; rfl
      | cons a l => simp

theorem init_tries {V : Type} {can : Bool → Param → V → Bool} {convert : Bool} {c : PyCall V} (hs : c.Sane) {i : Nat} {t : Func} {k : Nat}
    (hk : k ≤ t.params.length) {vs : List V} (h : ((ctorInit E i t k).overload t).tries can convert c = some vs) :
    vs.length = k ∧ Gives (t.params.map (·.name)) c vs ∧ (∀ y ∈ t.params.zip vs, can convert y.1 y.2 = true) := by
  unfold Overload.tries at h
  cases ha : ((ctorInit E i t k).overload t).arguments c with
  | none => rw [ha] at h; cases h
  | some ws =>
    simp only [ha] at h
    split at h
    · rename_i hall
      cases h
      unfold Spec.Init.overload at ha hall
      rw [ctorInit_arity E i t k hk] at ha hall
      have main : vs.length = k ∧ Gives (t.params.map (·.name)) c vs := by
        rw [ctorInit_keywords] at ha
        split at ha
        · obtain ⟨h1, h2, rfl⟩ := arguments_positional.1 ha
          rw [List.length_take] at h1
          refine ⟨by omega, by simp; omega, List.prefix_refl _, ?_⟩
          rw [h2, List.drop_of_length_le (by simp; omega)]
        · have e : (t.params.take k).map (·.name) = if (t.params.take k).map (·.name) = [] then [] else [] ++ (t.params.take k).map (·.name) := by
            split
            · assumption
            · rfl
          rw [e] at ha
          have ha' : Overload.arguments ⟨if (t.params.take k).map (·.name) = [] then [] else [] ++ (t.params.take k).map (·.name), t.params.take k⟩
            ⟨[] ++ c.pos, c.kw⟩ = some vs := ha
          obtain ⟨us, hus, h1, h2, h3⟩ := arguments_sound (obj := ([] : List V)) (selfs := []) rfl (by simp) hs.1 ha'
          obtain rfl : vs = us := hus
          have hl : vs.length = k := by rw [h1]; simp; omega
          refine ⟨hl, by simp; omega, h2, ?_⟩
          rw [← hl, List.map_take, gives_take (by simp; omega)] at h3; exact h3
      refine ⟨main.1, main.2, ?_⟩
      intro y hy
      rw [List.all_eq_true] at hall
      apply hall
      have := main.1
      subst this
      obtain ⟨n, hn, rfl⟩ := List.getElem_of_mem hy
      simp only [List.length_zip] at hn
      rw [List.mem_iff_getElem]
      exact ⟨n, by simp; omega, by simp⟩
    · cases h

theorem init_takes {V : Type} {can : Bool → Param → V → Bool} {convert : Bool} {c : PyCall V} (hs : c.Sane) {i : Nat} {t : Func}
    (hab : (E.cls i).isAbstract = true → trampoline E i = true) {vs : List V} (h : Constructs E i t c vs)
    (hc : ∀ y ∈ t.params.zip vs, can convert y.1 y.2 = true) :
    ((ctorInit E i t vs.length).overload t).tries can convert c = some vs := by
  have hk : vs.length ≤ t.params.length := by simpa using h.suits.gives.1
  have ha : ((ctorInit E i t vs.length).overload t).arguments c = some vs := by
    unfold Spec.Init.overload
    rw [ctorInit_arity E i t _ hk, ctorInit_keywords]
    split
    · rename_i hb
      rw [Bool.and_eq_true, Bool.or_eq_true] at hb
      have htr : trampoline E i = true := hb.1.elim hab id
      have hkw : c.kw = [] := by
        rcases h.keywords with e | e | ⟨e1, e2⟩
        · exact e
        · rw [htr] at e; cases e
        · have := hb.2
          simp [e1, e2] at this
      have hp : c.pos = vs := by
        obtain ⟨us, rfl⟩ := h.suits.gives.2.1
        have := h.suits.gives.2.2.length_eq
        have h1 := h.suits.gives.1
        rw [hkw] at this
        simp only [List.length_nil, List.length_drop, List.length_zip, List.length_append] at this h1
        obtain rfl : us = [] := List.length_eq_zero_iff.1 (by omega)
        simp
      exact arguments_positional.2 ⟨by rw [hp]; simp; omega, hkw, hp.symm⟩
    · have e : (t.params.take vs.length).map (·.name) =
          if (t.params.take vs.length).map (·.name) = [] then [] else [] ++ (t.params.take vs.length).map (·.name) := by
        split
        · assumption
        · rfl
      rw [e]
      show Overload.arguments _ ⟨[] ++ c.pos, c.kw⟩ = some ([] ++ vs)
      apply arguments_complete
      · rfl
      · simp
      · exact hs
      · rw [List.map_take]; exact h.suits.differ.sublist (List.take_sublist _ _)
      · intro n hn; cases hn
      · simp; omega
      · exact h.suits.gives.2.1
      · rw [List.map_take, gives_take (by simp; omega)]; exact h.suits.gives.2.2
  unfold Overload.tries
  simp only [ha]
  rw [if_pos]
  rw [List.all_eq_true]
  intro y hy
  apply hc
  unfold Spec.Init.overload at hy
  rw [ctorInit_arity E i t _ hk] at hy
  obtain ⟨n, hn, rfl⟩ := List.getElem_of_mem hy
  simp only [List.length_zip, List.length_take] at hn
  rw [List.mem_iff_getElem]
  exact ⟨n, by simp; omega, by simp⟩

theorem left_out_ctor {ps : List Param} (hd : DefaultsLast ps) {k : Nat} (hk : firstDefault ps ≤ k) : ∀ p ∈ ps.drop k, p.hasDefault = true := by
  intro p hp
  obtain ⟨i, hi, rfl⟩ := List.getElem_of_mem hp
  rw [List.length_drop] at hi
  have hf := firstDefault_at ps (by omega)
  rw [List.getElem_drop]
  rcases Nat.lt_or_ge (firstDefault ps) (k + i) with hlt | hge
  · exact List.pairwise_iff_getElem.1 hd _ _ _ _ hlt hf
  · have : firstDefault ps = k + i := by omega
    simpa only [this] using hf

theorem Suits.enough_ctor {t : Func} {V : Type} {c : PyCall V} {vs : List V} (h : Suits t c vs) : firstDefault t.params ≤ vs.length := by
  have hl := firstDefault_le t.params
  rcases Nat.lt_or_ge vs.length (firstDefault t.params) with hlt | hge
  · have := firstDefault_before t.params vs.length (by omega) hlt
    have hm : t.params[vs.length]'(by omega) ∈ t.params.drop vs.length := by
      rw [List.drop_eq_getElem_cons (by omega)]; exact List.mem_cons_self
    rw [h.enough _ hm] at this; cases this
  · exact hge

/-- C91 for constructors, apart from the one without parameters and the copy constructor. If a call reaches one of the constructors of a
class, it gets exactly the arguments of the call, each as the parameter for which it was given, only parameters with default arguments are left
out, and objects of the classes of C52 are created with these arguments. Every call that suits a constructor, with arguments of
convertible types and with keywords only where there are keywords (see `C60_callback_false`), is accepted. -/
theorem C91_construct_partial (i : Nat) :
    ∃ (comment : Func → Str) (inits : Func → List Init),
      (∀ t, Item.ctor t ∈ ctorItems E i → itemText E i (.ctor t) = ((inits t).map fun x => comment t ++ x.text ++ c!"\n").flatten) ∧
      ∀ (ts : List Func) (V : Type) (can : Bool → Param → V → Bool) (c : PyCall V), c.Sane → (∀ t ∈ ts, Item.ctor t ∈ ctorItems E i) →
        (∀ p v, can false p v = true → can true p v = true) →
        let reached := dispatch can (ts.flatMap fun t => (inits t).map fun x => ((t, x), x.overload t)) c
        (∀ t x vs, reached = some ((t, x), vs) → t ∈ ts ∧ x ∈ inits t ∧ Gives (t.params.map (·.name)) c vs ∧
          (DefaultsLast t.params → ∀ p ∈ t.params.drop vs.length, p.hasDefault = true) ∧
          (∀ y ∈ t.params.zip vs, can true y.1 y.2 = true) ∧
          (Creates x vs none vs ∨ ∀ n ∈ createdClasses E i, Creates x vs (some n) vs)) ∧
        (∀ t ∈ ts, ∀ vs, Constructs E i t c vs → (∀ y ∈ t.params.zip vs, can true y.1 y.2 = true) →
          reached.isSome = true ∧ (ts = [t] → ∃ x, reached = some ((t, x), vs))) := by
  refine ⟨_, fun t => (arities (firstDefault t.params) t.params.length).map (ctorInit E i t), fun t ht => (ctors_eq E i t ht).1, ?_⟩
  intro ts V can c hs hts hmono
  have hkl : ∀ (t : Func) k, k ∈ arities (firstDefault t.params) t.params.length → firstDefault t.params ≤ k ∧ k ≤ t.params.length := by
    intro t k hk
    simp only [arities, List.mem_range'_1] at hk
    have := firstDefault_le t.params
    omega
  generalize hch : (ts.flatMap fun t : Func => ((arities (firstDefault t.params) t.params.length).map (ctorInit E i t)).map
    fun x => ((t, x), x.overload t)) = chain
  have hmem : ∀ (t : Func) x o, ((t, x), o) ∈ chain ↔ t ∈ ts ∧ ∃ k ∈ arities (firstDefault t.params) t.params.length, x = ctorInit E i t k ∧ o = x.overload t := by
    intro F x o
    subst hch
    simp only [List.mem_flatMap, List.mem_map]
    constructor
    · rintro ⟨G, hG, y, ⟨k, hk, rfl⟩, e⟩
      simp only [Prod.mk.injEq] at e
      obtain ⟨⟨rfl, rfl⟩, rfl⟩ := e
      exact ⟨hG, k, hk, rfl, rfl⟩
    · rintro ⟨hF, k, hk, rfl, rfl⟩
      exact ⟨F, hF, _, ⟨k, hk, rfl⟩, rfl⟩
  have sound : ∀ (t : Func) x vs, dispatch can chain c = some ((t, x), vs) → t ∈ ts ∧ ∃ k, k ∈ arities (firstDefault t.params) t.params.length ∧
      x = ctorInit E i t k ∧ vs.length = k ∧ Gives (t.params.map (·.name)) c vs ∧ (∀ y ∈ t.params.zip vs, can true y.1 y.2 = true) := by
    intro t x vs h
    obtain ⟨o, convert, h1, h2, _⟩ := dispatch_sound h
    obtain ⟨ht, k, hk, rfl, rfl⟩ := (hmem t x o).1 h1
    obtain ⟨hv, hg, hcan⟩ := init_tries E hs (hkl t k hk).2 h2
    refine ⟨ht, k, hk, rfl, hv, hg, ?_⟩
    cases convert with
    | true => exact hcan
    | false => exact fun y hy => hmono _ _ (hcan y hy)
  refine ⟨?_, ?_⟩
  · intro t x vs h
    obtain ⟨ht, k, hk, rfl, hv, hg, hcan⟩ := sound t x vs h
    refine ⟨ht, List.mem_map.2 ⟨k, hk, rfl⟩, hg, fun hd => left_out_ctor hd (by rw [hv]; exact (hkl t k hk).1), hcan, ?_⟩
    have hc := init_creates E i t k (hkl t k hk).2 vs hv
    by_cases e : k = t.params.length ∧ t.isVariadic = false
    · exact .inl (hc none (.inl ⟨rfl, e.1, e.2⟩))
    · refine .inr fun n hn => hc (some n) (.inr ⟨⟨n, hn, rfl⟩, ?_⟩)
      rcases Nat.lt_or_ge k t.params.length with h | h
      · exact .inl h
      · cases hvar : t.isVariadic with
        | true => exact .inr rfl
        | false => exact absurd ⟨by have := (hkl t k hk).2; omega, hvar⟩ e
  · intro t ht vs hsu hcan
    have hsome : (dispatch can chain c).isSome = true := by
      refine dispatch_some ((hmem t _ _).2 ⟨ht, vs.length, ?_, rfl, rfl⟩) (init_takes E hs (ctor_callback E (hts t ht)) hsu hcan)
      have h1 := hsu.suits.enough_ctor
      have h2 : vs.length ≤ t.params.length := by simpa using hsu.suits.gives.1
      simp only [arities, List.mem_range'_1]; omega
    refine ⟨hsome, ?_⟩
    rintro rfl
    obtain ⟨⟨⟨G, x⟩, ws⟩, hr⟩ := Option.isSome_iff_exists.1 hsome
    obtain ⟨hG, k, hk, _, hv, hg, _⟩ := sound G x ws hr
    obtain rfl : G = t := by simpa using hG
    obtain rfl := gives_unique hs.1 hg hsu.suits.gives
    exact ⟨x, hr⟩

/-- The hypotheses are met: for `A(int x, int y = 0)` the call `A(y = 1, x = 5)` suits and reaches the constructor with `5, 1`. -/
example : let E := classWith [.method twoArguments]
    Item.ctor twoArguments ∈ ctorItems E 0 ∧ Constructs E 0 twoArguments (⟨[], [(c!"y", 1), (c!"x", 5)]⟩ : PyCall Nat) [5, 1] ∧
    Constructs E 0 twoArguments (⟨[5], []⟩ : PyCall Nat) [5] ∧
    dispatch (fun _ _ _ => true) ([1, 2].map fun k => (k, (ctorInit E 0 twoArguments k).overload twoArguments))
      (⟨[], [(c!"y", 1), (c!"x", 5)]⟩ : PyCall Nat) = some (2, [5, 1]) := by
  refine ⟨(C48_constructors_partial _ _ _).2 ⟨.inl rfl, rfl, .inr (.inl ⟨twoArguments, by decide +kernel, rfl, List.mem_cons_self, rfl, rfl,
    by decide +kernel, rfl⟩)⟩, ⟨⟨⟨by decide, List.nil_prefix, ?_⟩, by decide, ?_⟩, .inr (.inl (by decide +kernel))⟩,
    ⟨⟨⟨by decide, List.prefix_refl _, .refl _⟩, by decide, ?_⟩, .inl rfl⟩, by decide +kernel⟩
  · exact List.Perm.swap _ _ _
  · unfold NamesDiffer; decide
  · unfold NamesDiffer; decide

end Binder
