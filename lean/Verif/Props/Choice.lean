import Verif.Props.Trampoline
import Verif.Props.Call
import Verif.Spec.Choice

/-!
# C109: the choice among overloads, in Python and in C++
-/

namespace Binder

open Cxx Spec

variable (E : Env)

/-! ## The first function that takes the arguments -/

theorem Overload.tries_mono {α V : Type} {can : Bool → α → V → Bool} (hmono : ∀ p v, can false p v = true → can true p v = true)
    {o : Overload α} {c : PyCall V} {ws : List V} (h : o.tries can false c = some ws) : o.tries can true c = some ws := by
  unfold Overload.tries at h ⊢
  cases ha : o.arguments c with
  | none => rw [ha] at h; cases h
  | some vs =>
    simp only [ha] at h ⊢
    split at h
    · rename_i hall
      rw [if_pos]
      · exact h
      · rw [List.all_eq_true] at hall ⊢
        exact fun x hx => hmono _ _ (hall x hx)
    · cases h

theorem dispatch_first {β α V : Type} {can : Bool → α → V → Bool} (hmono : ∀ p v, can false p v = true → can true p v = true)
    {l₁ l₂ : List (β × Overload α)} {b : β} {o : Overload α} {c : PyCall V} {ws : List V} (h₁ : ∀ x ∈ l₁, x.2.tries can false c = none)
    (h : o.tries can false c = some ws) : dispatch can (l₁ ++ (b, o) :: l₂) c = some (b, ws) := by
  unfold dispatch
  simp only
  split
  · rename_i hl
    obtain rfl : l₁ = [] := List.length_eq_zero_iff.1 (by simp at hl; omega)
    simp [Overload.tries_mono hmono h]
  · rw [List.findSome?_append, List.findSome?_eq_none_iff.2 (fun x hx => by rw [h₁ x hx]; rfl)]
    simp [h]

theorem dispatch_earlier {β α V : Type} {can : Bool → α → V → Bool} (hmono : ∀ p v, can false p v = true → can true p v = true)
    {l₁ l₂ : List (β × Overload α)} {c : PyCall V} (h : ∃ x ∈ l₁, (x.2.tries can false c).isSome = true) :
    ∃ x ∈ l₁, ∃ ws, dispatch can (l₁ ++ l₂) c = some (x.1, ws) := by
  induction l₁ with
  | nil => obtain ⟨x, hx, _⟩ := h; cases hx
  | cons y l ih =>
    by_cases hy : ∃ ws, y.2.tries can false c = some ws
    · obtain ⟨ws, hy⟩ := hy
      exact ⟨y, List.mem_cons_self, ws, dispatch_first (l₁ := []) hmono (fun x hx => by cases hx) hy⟩
    · have hn : y.2.tries can false c = none := by
        cases e : y.2.tries can false c with
        | none => rfl
        | some ws => exact absurd ⟨ws, e⟩ hy
      obtain ⟨x, hx, hs⟩ := h
      have hxl : x ∈ l := by
        rcases List.mem_cons.1 hx with rfl | hx
        · rw [hn] at hs; cases hs
        · exact hx
      have hsome : ∃ z ∈ l, ∃ ws, (l ++ l₂).findSome? (fun o => (o.2.tries can false c).map fun vs => (o.1, vs)) = some (z.1, ws) := by
        cases hf : l.findSome? (fun o => (o.2.tries can false c).map fun vs => (o.1, vs)) with
        | none =>
          have := List.findSome?_eq_none_iff.1 hf x hxl
          rw [Option.map_eq_none_iff] at this
          rw [this] at hs; cases hs
        | some r =>
          obtain ⟨z, hz, e⟩ := List.exists_of_findSome?_eq_some hf
          rw [Option.map_eq_some_iff] at e
          obtain ⟨ws, _, rfl⟩ := e
          exact ⟨z, hz, ws, by rw [List.findSome?_append, hf]; rfl⟩
      obtain ⟨z, hz, ws, hw⟩ := hsome
      refine ⟨z, List.mem_cons_of_mem _ hz, ws, ?_⟩
      unfold dispatch
      simp only
      have : 0 < l.length := List.length_pos_of_mem hz
      rw [if_neg (by simp only [List.length_append, List.length_cons]; omega)]
      rw [List.cons_append, List.findSome?_cons, hn]
      simp [hw]

/-! ## Calls by position -/

theorem gives_pos {V : Type} {names : List Str} {vs us : List V} (h : Gives names ⟨vs, []⟩ us) : us = vs := by
  obtain ⟨h1, ⟨z, rfl⟩, h3⟩ := h
  have := h3.length_eq
  simp at this
  simp only [List.length_append] at h1 this
  rw [List.length_eq_zero_iff.1 (show z.length = 0 by omega), List.append_nil]

theorem gives_of_pos {V : Type} {names : List Str} {vs : List V} (h : vs.length ≤ names.length) : Gives names ⟨vs, []⟩ vs :=
  ⟨h, List.prefix_refl _, by rw [List.drop_eq_nil_of_le (by simp; omega)]⟩

theorem zip_params {V : Type} {P : Param → V → Prop} {ps : List Param} {vs : List V} (h : ∀ y ∈ (ps.map some).zip vs, ∀ p, y.1 = some p → P p y.2)
    {i : Nat} {p : Param} {v : V} (hp : ps[i]? = some p) (hv : vs[i]? = some v) : P p v := by
  refine h (some p, v) ?_ p rfl
  rw [List.mem_iff_getElem?]
  exact ⟨i, by simp [List.getElem?_zip_eq_some, hp, hv]⟩

theorem mem_zip_params {V : Type} {ps : List Param} {vs : List V} {y : Option Param × V} (h : y ∈ (ps.map some).zip vs) :
    ∃ (i : Nat) (p : Param), y.1 = some p ∧ ps[i]? = some p ∧ vs[i]? = some y.2 := by
  obtain ⟨i, hi⟩ := List.mem_iff_getElem?.1 h
  rw [List.getElem?_zip_eq_some] at hi
  obtain ⟨h1, h2⟩ := hi
  rw [List.getElem?_map, Option.map_eq_some_iff] at h1
  obtain ⟨p, hp, e⟩ := h1
  exact ⟨i, p, e.symm, hp, h2⟩

theorem sane_pos {V : Type} (vs : List V) : (⟨vs, []⟩ : PyCall V).Sane := ⟨List.nodup_nil, fun x hx => by cases hx⟩

/-- A function can be reached from Python with `k` arguments: leaving out arguments is not possible if a parameter is a function, see
`C91_function_parameter_false`. The last two conditions hold for every C++ function. -/
structure Offered (F : Func) (k : Nat) : Prop where
  functions : k = F.params.length ∨ ¬ ∃ p ∈ F.params, IsFunction p.ty.canon
  differ : NamesDiffer (F.params.map (·.name))
  defaults : DefaultsLast F.params

variable {H : Hierarchy} {V : Type} {classOf : V → Nat} {can : Bool → Option Param → V → Bool}

/-- What it means that pybind11 takes a call by position as it is. -/
theorem taken_iff (hcan : CastsObjects H classOf can) {b : Binding} (hd : DefaultsLast b.F.params) {obj vs : List V} (ho : obj.length = if b.F.isInstance then 1 else 0)
    {x : Def} (hx : x ∈ bindingDefs E b) {ws : List V} (h : (x.overload b.F).tries can false ⟨obj ++ vs, []⟩ = some ws) :
    vs.length ≤ b.F.params.length ∧ TakesNumber b.F vs.length ∧
    ∀ i v t, vs[i]? = some v → paramTy b.F i = some t → ∃ q m, objectParam t = some (q, m) ∧ H.isa (classOf v) q := by
  obtain ⟨k, hk, rfl⟩ := List.mem_map.1 hx
  have hkl : firstArity b.F ≤ k ∧ k ≤ b.F.params.length := by simp only [arities, List.mem_range'_1] at hk; omega
  obtain ⟨us, rfl, hl, hg, hc⟩ := overload_tries E (c := ⟨vs, []⟩) (sane_pos vs) hkl.2 ho h
  obtain rfl := gives_pos hg
  subst hl
  refine ⟨hkl.2, ⟨left_out hd hkl.1, .inl hkl.2⟩, ?_⟩
  intro i v t hv ht
  rw [paramTy, Option.map_eq_some_iff] at ht
  obtain ⟨p, hp, rfl⟩ := ht
  refine (hcan p v).1 (zip_params (P := fun p v => can false (some p) v = true) ?_ hp hv)
  intro y hy p e
  rw [← e]; exact hc y hy

/-- Objects of suitable classes are taken as they are. -/
theorem taken_of (hcan : CastsObjects H classOf can) {b : Binding} {obj vs : List V} (hoff : Offered b.F vs.length) (ho : obj.length = if b.F.isInstance then 1 else 0)
    (hobj : ∀ o ∈ obj, can false none o = true) (hl : vs.length ≤ b.F.params.length) (hn : TakesNumber b.F vs.length)
    (ht : ∀ i v t, vs[i]? = some v → paramTy b.F i = some t → ∃ q m, objectParam t = some (q, m) ∧ H.isa (classOf v) q) :
    ∃ x ∈ bindingDefs E b, (x.overload b.F).tries can false ⟨obj ++ vs, []⟩ = some (obj ++ vs) := by
  have hp : Possible b.F (⟨vs, []⟩ : PyCall V) vs := ⟨⟨gives_of_pos (by simpa using hl), hn.1, hoff.differ⟩, hoff.functions, fun _ h => by cases h⟩
  refine ⟨overloadDef E b.F vs.length b.parent b.lam, List.mem_map.2 ⟨vs.length, ?_, rfl⟩, ?_⟩
  · have := hp.enough
    simp only [arities, List.mem_range'_1]; omega
  · refine overload_takes E (c := ⟨vs, []⟩) (sane_pos vs) ho hp ?_ hobj
    intro y hy
    obtain ⟨i, p, e, h1, h2⟩ := mem_zip_params hy
    rw [e]
    exact (hcan p y.2).2 (ht i y.2 p.ty h2 (by simp [paramTy, h1]))

/-! ## The theorems -/

/-- C109, a condition: pybind11 calls the first function that takes the arguments, C++ the best one. Let a C++ call with variables of classes
reach the function `b.F`, among functions with the same name and perhaps others that are not bound. If every function that is bound before it may
precede it, then the Python call with objects of these classes reaches it too. `defs` are the statements that are written for each function.
Otherwise see `C109_order_false`. Missing: arguments that are not objects of classes, or are given by keyword, and C++ calls with other
conversions. -/
theorem C109_choice_partial (module : Str) :
    ∃ (comment : Binding → Str) (defs : Binding → List Def),
      (∀ b, bindFunctionText E module b.F b.parent b.lam = comment b ++ ((defs b).map fun x => module ++ x.text ++ c!"\n").flatten) ∧
      ∀ (H : Hierarchy) (V : Type) (classOf : V → Nat) (can : Bool → Option Param → V → Bool) (conv : Nat → Ty → Prop)
        (before after : List Binding) (b : Binding) (scope : List Func) (obj vs : List V),
        CastsObjects H classOf can → (∀ p v, can false p v = true → can true p v = true) → (∀ o ∈ obj, can false none o = true) →
        (∀ g ∈ before ++ b :: after, g.F ∈ scope ∧ (obj.length = if g.F.isInstance then 1 else 0) ∧ DefaultsLast g.F.params) →
        Offered b.F vs.length → Chooses H conv (vs.map classOf) scope b.F →
        (∀ g ∈ before, g.F ≠ b.F ∧ MayPrecede H g.F b.F vs.length) →
        ∃ x, dispatch can ((before ++ b :: after).flatMap fun b => (defs b).map fun x => ((b, x), x.overload b.F)) ⟨obj ++ vs, []⟩ =
          some ((b, x), obj ++ vs) := by
  refine ⟨_, bindingDefs E, fun b => bindFunctionText_eq E module b.F b.parent b.lam, ?_⟩
  intro H V classOf can conv before after b scope obj vs hcan hmono hobj hall hoff hch hprec
  have hb := hall b (by simp)
  have hnum := hch.number
  rw [List.length_map] at hnum
  obtain ⟨x, hx, htr⟩ := taken_of E hcan hoff hb.2.1 hobj hnum.1 hnum.2 (by
    intro i v t hv ht
    obtain ⟨q, m, h1, _, h2⟩ := hch.fits i (classOf v) t (by simp [hv]) ht
    exact ⟨q, m, h1, h2⟩)
  -- functions before it do not take the call
  have hnot : ∀ g ∈ before, ∀ y ∈ bindingDefs E g, (y.overload g.F).tries can false ⟨obj ++ vs, []⟩ = none := by
    intro g hg y hy
    cases e : (y.overload g.F).tries can false ⟨obj ++ vs, []⟩ with
    | none => rfl
    | some ws =>
      exfalso
      have hga := hall g (by simp [hg])
      obtain ⟨hl, hn, htk⟩ := taken_iff E hcan hga.2.2 hga.2.1 hy e
      obtain ⟨hne, hmp⟩ := hprec g hg
      have hex : ∀ {i : Nat}, i < vs.length → ∃ v t u, vs[i]? = some v ∧ paramTy g.F i = some t ∧ paramTy b.F i = some u := by
        intro i hi
        exact ⟨vs[i], (g.F.params[i]).ty, (b.F.params[i]).ty, by simp [hi], by simp [paramTy, show i < g.F.params.length by omega],
          by simp [paramTy, show i < b.F.params.length by omega]⟩
      rcases hmp with ⟨i, hi, hdis⟩ | ⟨hptr, hbetter⟩
      · obtain ⟨v, t, u, hv, ht, hu⟩ := hex hi
        obtain ⟨q, m, h1, h2⟩ := htk i v t hv ht
        obtain ⟨p, n, h3, _, h4⟩ := hch.fits i (classOf v) u (by simp [hv]) hu
        exact hdis ⟨classOf v, q, p, ⟨t, u, m, n, ht, hu, h1, h3⟩, h2, h4⟩
      · have htv : ∀ i v t, vs[i]? = some v → paramTy g.F i = some t → TakesVariable H (classOf v) t := by
          intro i v t hv ht
          obtain ⟨q, m, h1, h2⟩ := htk i v t hv ht
          refine ⟨q, m, h1, ?_, h2⟩
          rintro rfl
          exact hptr i t q (by obtain ⟨hi, _⟩ := List.getElem?_eq_some_iff.1 hv; exact hi) ht h1
        have hviable : ViableFor H conv (vs.map classOf) g.F := by
          refine ⟨by rw [List.length_map]; exact hn, ?_⟩
          intro i r t hr ht
          rw [List.getElem?_map, Option.map_eq_some_iff] at hr
          obtain ⟨v, hv, rfl⟩ := hr
          exact .inl (htv i v t hv ht)
        have hbest := hch.best g.F hga.1 hne hviable
        rcases hbetter with ⟨i, t, u, hi, ht, hu, hcl⟩ | hself
        · obtain ⟨v, _, _, hv, _, _⟩ := hex hi
          refine hbest.never.1 i (classOf v) (by simp [hv]) ⟨t, ht, htv i v t hv ht, ?_⟩
          intro u' hu'
          rw [hu] at hu'; cases hu'
          exact .inr hcl
        · exact hbest.never.2 hself
  rw [List.flatMap_append, List.flatMap_cons]
  obtain ⟨d₁, d₂, hd⟩ := List.append_of_mem hx
  -- and no shorter statement of the function itself
  have hfirst : ∃ y ∈ bindingDefs E b, ∃ e₁ e₂, bindingDefs E b = e₁ ++ y :: e₂ ∧ (∀ z ∈ e₁, (z.overload b.F).tries can false ⟨obj ++ vs, []⟩ = none) ∧
      (y.overload b.F).tries can false ⟨obj ++ vs, []⟩ = some (obj ++ vs) := by
    have key : ∀ l : List Def, (∀ z ∈ l, z ∈ bindingDefs E b) → x ∈ l → ∃ y ∈ l, ∃ e₁ e₂, l = e₁ ++ y :: e₂ ∧
        (∀ z ∈ e₁, (z.overload b.F).tries can false ⟨obj ++ vs, []⟩ = none) ∧ (y.overload b.F).tries can false ⟨obj ++ vs, []⟩ = some (obj ++ vs) := by
      intro l hl hxl
      induction l with
      | nil => cases hxl
      | cons z l ih =>
        cases e : (z.overload b.F).tries can false ⟨obj ++ vs, []⟩ with
        | some ws =>
          have hz := hl z List.mem_cons_self
          obtain ⟨k, hk, rfl⟩ := List.mem_map.1 hz
          have hkl : k ≤ b.F.params.length := by simp only [arities, List.mem_range'_1] at hk; omega
          obtain ⟨us, rfl, _, hg, _⟩ := overload_tries E (c := ⟨vs, []⟩) (sane_pos vs) hkl hb.2.1 e
          obtain rfl := gives_pos hg
          exact ⟨_, List.mem_cons_self, [], l, rfl, (fun _ h => nomatch h), e⟩
        | none =>
          have hxl' : x ∈ l := by
            rcases List.mem_cons.1 hxl with rfl | h
            · rw [htr] at e; cases e
            · exact h
          obtain ⟨y, hy, e₁, e₂, h1, h2, h3⟩ := ih (fun w hw => hl w (List.mem_cons_of_mem _ hw)) hxl'
          refine ⟨y, List.mem_cons_of_mem _ hy, z :: e₁, e₂, by rw [h1]; rfl, ?_, h3⟩
          intro w hw
          rcases List.mem_cons.1 hw with rfl | hw
          · exact e
          · exact h2 w hw
    exact key _ (fun _ h => h) hx
  obtain ⟨y, _, e₁, e₂, he, h1, h2⟩ := hfirst
  refine ⟨y, ?_⟩
  rw [he, List.map_append, List.map_cons, List.append_assoc, List.cons_append, ← List.append_assoc]
  refine dispatch_first hmono ?_ h2
  intro z hz
  rcases List.mem_append.1 hz with hz | hz
  · obtain ⟨g, hg, hz⟩ := List.mem_flatMap.1 hz
    obtain ⟨w, hw, rfl⟩ := List.mem_map.1 hz
    exact hnot g hg w hw
  · obtain ⟨w, hw, rfl⟩ := List.mem_map.1 hz
    exact h1 w hw

/-- C109 is false if a function `g.F` that is bound earlier takes all objects that `b.F` takes, while the classes of the parameters of `b.F`
tell it apart from all functions in C++. A C++ call with variables of these classes reaches `b.F`; a Python call with objects of these
classes, and all calls with objects that `b.F` takes, reach a function that is bound before it. -/
theorem C109_order_false (module : Str) :
    ∃ (comment : Binding → Str) (defs : Binding → List Def),
      (∀ b, bindFunctionText E module b.F b.parent b.lam = comment b ++ ((defs b).map fun x => module ++ x.text ++ c!"\n").flatten) ∧
      ∀ (H : Hierarchy) (conv : Nat → Ty → Prop) (before after : List Binding) (b g : Binding) (scope : List Func) (k : Nat),
        b.F ∈ scope → k ≤ b.F.params.length → TakesNumber b.F k →
        (∀ i t, i < k → paramTy b.F i = some t → ∃ p m, objectParam t = some (p, m) ∧ m ≠ .pointer) →
        (∀ G ∈ scope, G ≠ b.F → ClassesTell b.F G k) →
        g ∈ before → k ≤ g.F.params.length → TakesNumber g.F k → Offered g.F k → Covers H g.F b.F k →
        ∃ classes : List Nat, classes.length = k ∧ Chooses H conv classes scope b.F ∧
          ∀ (V : Type) (classOf : V → Nat) (can : Bool → Option Param → V → Bool) (obj vs : List V),
            CastsObjects H classOf can → (∀ p v, can false p v = true → can true p v = true) → (∀ o ∈ obj, can false none o = true) →
            (∀ g ∈ before ++ b :: after, obj.length = if g.F.isInstance then 1 else 0) →
            vs.length = k → (∀ (i : Nat) c r, vs[i]? = some c → classes[i]? = some r → H.isa (classOf c) r) →
            ∃ h ∈ before, ∃ x ws, dispatch can ((before ++ b :: after).flatMap fun b => (defs b).map fun x => ((b, x), x.overload b.F))
              ⟨obj ++ vs, []⟩ = some ((h, x), ws) := by
  refine ⟨_, bindingDefs E, fun b => bindFunctionText_eq E module b.F b.parent b.lam, ?_⟩
  intro H conv before after b g scope k hb hkl hkn hcls htell hg hgl hgn hgo hcov
  let classes := (b.F.params.take k).map fun p => ((objectParam p.ty).map (·.1)).getD 0
  have hclen : classes.length = k := by simp [classes]; omega
  have hclass : ∀ i r t, classes[i]? = some r → paramTy b.F i = some t → i < k ∧ ∃ m, objectParam t = some (r, m) ∧ m ≠ .pointer := by
    intro i r t hr ht
    have hi : i < k := by
      obtain ⟨h, _⟩ := List.getElem?_eq_some_iff.1 hr
      rw [hclen] at h; exact h
    obtain ⟨p, m, h1, h2⟩ := hcls i t hi ht
    refine ⟨hi, m, ?_, h2⟩
    rw [paramTy, Option.map_eq_some_iff] at ht
    obtain ⟨a, ha, rfl⟩ := ht
    simp only [classes, List.getElem?_map, List.getElem?_take, hi, if_true, ha, Option.map_some, h1, Option.getD_some, Option.some.injEq] at hr
    subst hr; exact h1
  have hty : ∀ {i}, i < k → ∃ t r m, paramTy b.F i = some t ∧ classes[i]? = some r ∧ objectParam t = some (r, m) ∧ m ≠ .pointer := by
    intro i hi
    have h1 : paramTy b.F i = some (b.F.params[i]).ty := by simp [paramTy, show i < b.F.params.length by omega]
    have h2 : classes[i]? = some classes[i] := List.getElem?_eq_getElem _
    obtain ⟨_, m, h3, h4⟩ := hclass i _ _ h2 h1
    exact ⟨_, _, m, h1, h2, h3, h4⟩
  refine ⟨classes, hclen, ⟨hb, by rw [hclen]; exact ⟨hkl, hkn⟩, ?_, ?_⟩, ?_⟩
  · intro i r t hr ht
    obtain ⟨_, m, h1, h2⟩ := hclass i r t hr ht
    exact ⟨r, m, h1, h2, H.refl r⟩
  · intro G hG hne hv
    rcases htell G hG hne with hno | ⟨href, hself, honce⟩
    · exact absurd (hclen ▸ hv.number) hno
    refine ⟨⟨?_, hself⟩, ?_⟩
    · rintro i r hr ⟨u, hu, ⟨q, n, hq, hn, hrq⟩, hbet⟩
      have hi : i < k := by
        obtain ⟨h, _⟩ := List.getElem?_eq_some_iff.1 hr
        rw [hclen] at h; exact h
      obtain ⟨t, r', m, ht, hr', hp, hm⟩ := hty hi
      rw [hr] at hr'; cases hr'
      rcases hbet t ht with h | ⟨p', m', q', n', h1, h2, h3⟩
      · exact h ⟨r, m, hp, hm, H.refl r⟩
      · rw [hq] at h1; cases h1
        rw [hp] at h2; cases h2
        rcases h3 with ⟨h4, h5⟩ | ⟨rfl, rfl, rfl⟩
        · exact h4 (H.antisymm h5 hrq)
        · exact href i t u _ hi ht hu hp hq
    · rcases honce with ⟨i, t, p, m, hi, ht, hp, hG⟩ | hs
      · left
        obtain ⟨t', r, m', ht', hr, hp', hm⟩ := hty hi
        rw [ht] at ht'; cases ht'
        rw [hp] at hp'; cases hp'
        refine ⟨i, p, hr, t, ht, ⟨p, m, hp, hm, H.refl p⟩, ?_⟩
        intro u hu
        by_cases htk : TakesVariable H p u
        · right
          obtain ⟨q, n, hq, hn, hpq⟩ := htk
          refine ⟨p, m, q, n, hp, hq, ?_⟩
          by_cases e : p = q
          · subst e
            rcases hG u n hu hq with e | e
            · exact absurd e hn
            · exact .inr ⟨rfl, e⟩
          · exact .inl ⟨e, hpq⟩
        · exact .inl htk
      · exact .inr hs
  · intro V classOf can obj vs hcan hmono hobj ho hvl hvc
    subst hvl
    obtain ⟨x, hx, htr⟩ := taken_of E hcan hgo (ho g (by simp [hg])) hobj hgl hgn (by
      intro i v t hv ht
      have hi : i < vs.length := by obtain ⟨h, _⟩ := List.getElem?_eq_some_iff.1 hv; exact h
      obtain ⟨q, p, ⟨t', u, m, n, h1, h2, h3, h4⟩, hpq⟩ := hcov i hi
      rw [ht] at h1; cases h1
      obtain ⟨u', r, m', hu', hr, hp, _⟩ := hty hi
      rw [h2] at hu'; cases hu'
      rw [h4] at hp; cases hp
      exact ⟨q, m, h3, H.trans (hvc i v p hv hr) hpq⟩)
    rw [List.flatMap_append]
    obtain ⟨z, hz, ws, hd⟩ := dispatch_earlier (l₂ := (b :: after).flatMap fun b => (bindingDefs E b).map fun x => ((b, x), x.overload b.F)) hmono
      (l₁ := before.flatMap fun b => (bindingDefs E b).map fun x => ((b, x), x.overload b.F)) (c := ⟨obj ++ vs, []⟩)
      ⟨((g, x), x.overload g.F), List.mem_flatMap.2 ⟨g, hg, List.mem_map.2 ⟨x, hx, rfl⟩⟩, by rw [htr]; rfl⟩
    obtain ⟨h, hh, hz⟩ := List.mem_flatMap.1 hz
    obtain ⟨y, _, rfl⟩ := List.mem_map.1 hz
    exact ⟨h, hh, y, ws, hd⟩

namespace Ex

/-- `D` is derived from `A`. -/
def derived : Hierarchy where
  isa r q := r = q ∨ r = 1 ∧ q = 0
  refl _ := .inl rfl
  trans := by omega
  antisymm := by omega

/-- `struct A` with functions, and `struct D : A`. -/
def derivedEnv (Fs : List Func) : Env :=
  { exampleEnv with
    cls := fun i => if i = 0 then { exampleRecord with members := Fs.map .method }
      else { exampleRecord with name := c!"D", qname := c!"D", bases := [publicBase 0] }
    tyName := fun t => if t = .lref (.record 1) then c!"D &" else exampleTyName t }

/-- `int A::f(A &x)`. -/
def takesBase : Func := exampleMethod c!"f" false (.basic 0) [⟨c!"x", .lref (.record 0), false⟩]

/-- `int A::f(D &x)`. -/
def takesDerived : Func := { exampleMethod c!"f" false (.basic 0) [⟨c!"x", .lref (.record 1), false⟩] with ptr := 2 }

/-- `int A::f(int n = 0)`. -/
def changes : Func := exampleMethod c!"f" false (.basic 0) [⟨c!"n", .basic 0, true⟩]

/-- `int A::f() const`. -/
def looks : Func :=
  { exampleMethod c!"f" false (.basic 0) [] with
    ptr := 2
    method := some { parent := 0, access := .pub, kind := .ordinary, isStatic := false, isConst := true, isVirtual := false,
                     isPure := false, isFinal := false, isCopyAssign := false, exceptionSpec := 0 } }

end Ex

/-- Objects for which pybind11 behaves as assumed exist: here an object is given by its class. -/
example (H : Hierarchy) : ∃ can : Bool → Option Param → Nat → Bool, CastsObjects H id can ∧
    (∀ p v, can false p v = true → can true p v = true) ∧ ∀ o, can false none o = true := by
  classical
  refine ⟨fun _ p v => match p with
    | none => true
    | some p => decide (∃ q m, objectParam p.ty = some (q, m) ∧ H.isa v q), fun p v => by simp, fun p v h => h, fun o => rfl⟩

/-- The hypotheses of `C109_choice_partial` are met for `int f(D &x)`, followed by `int f(A &x)`: a call with an `A` reaches the second one. -/
example : MayPrecede Ex.derived Ex.takesDerived Ex.takesBase 1 ∧ Ex.takesDerived ≠ Ex.takesBase ∧ Offered Ex.takesBase 1 ∧
    DefaultsLast Ex.takesDerived.params ∧ Chooses Ex.derived (fun _ _ => False) [0] [Ex.takesDerived, Ex.takesBase] Ex.takesBase := by
  refine ⟨.inr ⟨?_, .inl ⟨0, _, _, by decide, rfl, rfl, 1, .ref, 0, .ref, rfl, rfl, .inl ⟨by decide, .inr ⟨rfl, rfl⟩⟩⟩⟩,
    fun h => (by decide : Ex.takesDerived.ptr ≠ Ex.takesBase.ptr) (congrArg Func.ptr h), ⟨.inl rfl, by unfold NamesDiffer; decide, by unfold DefaultsLast; decide⟩,
    by unfold DefaultsLast; decide, by simp, ⟨Nat.le_refl 1, (fun p hp => nomatch hp), .inl (Nat.le_refl 1)⟩, ?_, ?_⟩
  · intro i t q hi ht
    obtain rfl : i = 0 := by omega
    cases ht
    intro h; cases h
  · intro i r t hr ht
    match i, hr, ht with
    | 0, hr, ht => cases hr; cases ht; exact ⟨0, .ref, rfl, by decide, .inl rfl⟩
  · intro G hG hne hv
    exfalso
    obtain rfl : G = Ex.takesDerived := by
      rcases List.mem_cons.1 hG with h | h
      · exact h
      · exact absurd (List.mem_singleton.1 h) hne
    rcases hv.fits 0 0 _ rfl rfl with ⟨q, m, h1, _, h2⟩ | h
    · cases h1
      rcases h2 with h | h <;> omega
    · exact h

/-- The hypotheses of `C109_order_false` are met if they are bound the other way round, and if `int f(D *x)` is bound before `int f(D &x)`. -/
example : let pointer := exampleMethod c!"f" false (.basic 0) [⟨c!"x", .ptr (.record 1), false⟩]
    ClassesTell Ex.takesDerived Ex.takesBase 1 ∧ Covers Ex.derived Ex.takesBase Ex.takesDerived 1 ∧
    ClassesTell Ex.takesDerived pointer 1 ∧ Covers Ex.derived pointer Ex.takesDerived 1 ∧ TakesNumber pointer 1 ∧ Offered pointer 1 := by
  have hs : ∀ {F G : Func}, F.isConst = false → ¬ BetterSelf G F := fun h ⟨_, _, _, h'⟩ => by rw [h] at h'; cases h'
  refine ⟨.inr ⟨?_, hs rfl, .inl ⟨0, _, 1, .ref, by decide, rfl, rfl, ?_⟩⟩, ?_, .inr ⟨?_, hs rfl, .inl ⟨0, _, 1, .ref, by decide, rfl, rfl, ?_⟩⟩, ?_,
    ⟨(fun p hp => nomatch hp), .inl (Nat.le_refl 1)⟩, ⟨.inl rfl, by unfold NamesDiffer; decide, by unfold DefaultsLast; decide⟩⟩
  · intro i t u p hi ht hu h
    obtain rfl : i = 0 := by omega
    cases ht; cases h
  · intro u n hu h
    cases hu; cases h
  · intro i hi
    obtain rfl : i = 0 := by omega
    exact ⟨0, 1, ⟨_, _, .ref, .ref, rfl, rfl, rfl, rfl⟩, .inr ⟨rfl, rfl⟩⟩
  · intro i t u p hi ht hu h
    obtain rfl : i = 0 := by omega
    cases ht; cases h
  · intro u n hu h
    cases hu; cases h
    exact .inl rfl
  · intro i hi
    obtain rfl : i = 0 := by omega
    exact ⟨1, 1, ⟨_, _, .pointer, .ref, rfl, rfl, rfl, rfl⟩, .inl rfl⟩

theorem memberFunctions_plain (E : Env) (Fs : List Func) (h : (E.cls 0).members = Fs.map .method)
    (hw : Fs.all (fun m => m.access == .pub && memberWanted E m) = true) : memberFunctions E 0 = Fs.map (.method · none false) := by
  have h1 : ((Fs.map Member.method).flatMap (memberItems E 0)) = [] := by
    rw [List.flatMap_eq_nil_iff]
    intro m hm
    obtain ⟨F, _, rfl⟩ := List.mem_map.1 hm
    rfl
  have h2 : (E.cls 0).methods = Fs := by
    rw [Record.methods, h, List.filterMap_map]
    exact List.filterMap_some
  rw [memberFunctions, h2, h, h1, List.filter_eq_self.2 (fun a ha => List.all_eq_true.1 hw a ha)]
  rfl

/-- C109 is false for `struct A { int f(A &x); int f(D &x); }; struct D : A {};`: the functions are bound in this order, and the call
`o.f(d)` with an object `d` of class `D` reaches `f(D &)` in C++, and `f(A &)` in Python. -/
theorem C109_derived_false : ∃ (E : Env) (F G : Func) (x y : Def), (E.cls 0).methods = [G, F] ∧ ((E.cls 1).bases.map (·.record)) = [some 0] ∧
    memberFunctions E 0 = [.method G none false, .method F none false] ∧
    bindFunctionText E c!"\tcl" G none false = c!"\tcl" ++ y.text ++ c!"\n" ∧
    bindFunctionText E c!"\tcl" F none false = c!"\tcl" ++ x.text ++ c!"\n" ∧
    y.text = c!".def(\"f\", (int (A::*)(A &)) &A::f, \"C++: A::f(A &) --> int\", pybind11::arg(\"x\"));" ∧
    x.text = c!".def(\"f\", (int (A::*)(D &)) &A::f, \"C++: A::f(D &) --> int\", pybind11::arg(\"x\"));" ∧
    (∀ conv, Chooses Ex.derived conv [1] [G, F] F) ∧
    ∀ (V : Type) (classOf : V → Nat) (can : Bool → Option Param → V → Bool) (o d : V), CastsObjects Ex.derived classOf can →
      (∀ p v, can false p v = true → can true p v = true) → can false none o = true → classOf d = 1 →
      ∃ ws, dispatch can [(G, y.overload G), (F, x.overload F)] ⟨[o, d], []⟩ = some (G, ws) := by
  let E := Ex.derivedEnv [Ex.takesBase, Ex.takesDerived]
  refine ⟨E, Ex.takesDerived, Ex.takesBase, overloadDef E Ex.takesDerived 1 none false, overloadDef E Ex.takesBase 1 none false, rfl,
    by decide +kernel, memberFunctions_plain E [Ex.takesBase, Ex.takesDerived] rfl (by decide +kernel), by decide +kernel, by decide +kernel, by decide +kernel, by decide +kernel, ?_, ?_⟩
  · intro conv
    refine ⟨by simp, ⟨Nat.le_refl 1, (fun p hp => nomatch hp), .inl (Nat.le_refl 1)⟩, ?_, ?_⟩
    · intro i r t hr ht
      match i, hr, ht with
      | 0, hr, ht => cases hr; cases ht; exact ⟨1, .ref, rfl, by decide, .inl rfl⟩
    · intro G hG hne hv
      obtain rfl : G = Ex.takesBase := by
        rcases List.mem_cons.1 hG with h | h
        · exact h
        · exact absurd (List.mem_singleton.1 h) hne
      refine ⟨⟨?_, ?_⟩, .inl ⟨0, 1, rfl, .lref (.record 1), rfl, ⟨1, .ref, rfl, by decide, .inl rfl⟩, ?_⟩⟩
      · rintro i r hr ⟨u, hu, _, hb⟩
        match i, hr, hu with
        | 0, hr, hu =>
          cases hr; cases hu
          rcases hb _ rfl with h | ⟨p, m, q, n, h1, h2, h3⟩
          · exact h ⟨1, .ref, rfl, by decide, .inl rfl⟩
          · cases h1; cases h2
            rcases h3 with ⟨_, h | h⟩ | ⟨h, _⟩ <;> omega
      · rintro ⟨_, _, _, h⟩; cases h
      · intro u hu
        cases hu
        exact .inr ⟨1, .ref, 0, .ref, rfl, rfl, .inl ⟨by decide, .inr ⟨rfl, rfl⟩⟩⟩
  · intro V classOf can o d hcan hmono hobj hd
    have hx : can false (some ⟨c!"x", .lref (.record 0), false⟩) d = true := (hcan _ d).2 ⟨0, .ref, rfl, .inr ⟨hd, rfl⟩⟩
    refine ⟨[o, d], dispatch_first (l₁ := []) hmono (fun _ h => nomatch h) ?_⟩
    have ha : ((overloadDef E Ex.takesBase 1 none false).overload Ex.takesBase).arguments (⟨[o, d], []⟩ : PyCall V) = some [o, d] := rfl
    have hp : ((overloadDef E Ex.takesBase 1 none false).overload Ex.takesBase).params = [none, some ⟨c!"x", .lref (.record 0), false⟩] := rfl
    simp [Overload.tries, ha, hp, hobj, hx]

/-- C109 is false for `struct A { int f() const; int f(int n = 0); };`: for an object that is not `const`, `o.f()` reaches the second function in
C++, and the first in Python. (If the parameters are the same, binder does not bind the `const` function.) -/
theorem C109_const_false : ∃ (E : Env) (F G : Func) (x x' y : Def), (E.cls 0).methods = [G, F] ∧
    memberFunctions E 0 = [.method G none false, .method F none false] ∧
    bindFunctionText E c!"\tcl" G none false = c!"\tcl" ++ y.text ++ c!"\n" ∧
    bindFunctionText E c!"\tcl" F none false = c!"\tcl" ++ x.text ++ c!"\n" ++ c!"\tcl" ++ x'.text ++ c!"\n" ∧
    y.text = c!".def(\"f\", (int (A::*)() const) &A::f, \"C++: A::f() const --> int\");" ∧
    x.text = c!".def(\"f\", [](A &o) -> int { return o.f(); }, \"\");" ∧
    x'.text = c!".def(\"f\", (int (A::*)(int)) &A::f, \"C++: A::f(int) --> int\", pybind11::arg(\"n\"));" ∧
    (∀ H conv, Chooses H conv [] [G, F] F) ∧
    ∀ (V : Type) (can : Bool → Option Param → V → Bool), (∀ p v, can false p v = true → can true p v = true) → ∀ o,
      can false none o = true → dispatch can [(G, y.overload G), (F, x.overload F), (F, x'.overload F)] ⟨[o], []⟩ = some (G, [o]) := by
  let E := Ex.derivedEnv [Ex.looks, Ex.changes]
  refine ⟨E, Ex.changes, Ex.looks, overloadDef E Ex.changes 0 none false, overloadDef E Ex.changes 1 none false, overloadDef E Ex.looks 0 none false, rfl,
    memberFunctions_plain E [Ex.looks, Ex.changes] rfl (by decide +kernel), by decide +kernel, by decide +kernel, by decide +kernel, by decide +kernel,
    by decide +kernel, ?_, ?_⟩
  · intro H conv
    refine ⟨by simp, ⟨Nat.zero_le _, ?_, .inl (Nat.zero_le _)⟩, fun i r t hr => by simp at hr, ?_⟩
    · intro p hp
      obtain rfl : p = ⟨c!"n", .basic 0, true⟩ := List.mem_singleton.1 hp
      rfl
    intro G hG hne hv
    obtain rfl : G = Ex.looks := by
      rcases List.mem_cons.1 hG with h | h
      · exact h
      · exact absurd (List.mem_singleton.1 h) hne
    refine ⟨⟨fun i r hr => by simp at hr, ?_⟩, .inr ⟨rfl, rfl, rfl, rfl⟩⟩
    rintro ⟨_, _, _, h⟩; cases h
  · intro V can hmono o hobj
    refine dispatch_first (l₁ := []) hmono (fun _ h => nomatch h) ?_
    have hn : ((overloadDef E Ex.looks 0 none false).overload Ex.looks) = ⟨[], [none]⟩ := rfl
    rw [hn]
    simp [Overload.tries, Overload.arguments, takeKeywords, hobj]

end Binder
