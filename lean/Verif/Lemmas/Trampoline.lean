import Verif.Lemmas.Function
import Verif.Model.Class
import Verif.Spec.Class

/-! Facts about the callback structures of class.cpp. -/

namespace Binder

open Cxx Spec

variable (E : Env)

theorem overrideKey_eq (m : Func) :
    overrideKey E m = declarator m.name (m.params.map fun p => stdTy E p.ty) m.isConst := by
  have h : (m.params.zipIdx).map (fun p => stdTy E p.1.ty ++ c!" " ++ argName p.2) =
      ((m.params.map fun p => stdTy E p.ty).zipIdx).map fun p => p.1 ++ c!" " ++ ('a' :: Nat.toDigits 10 p.2) := by
    rw [List.zipIdx_map, List.map_map]
    apply List.map_congr_left
    intro p _
    simp [argName, natStr, Prod.map]
  unfold overrideKey declarator
  rw [overloadArguments_fst, h]
  cases m.isConst <;> simp

theorem mem_nonPrivateBases {C : Record} {j : Nat} :
    j ∈ nonPrivateBases C ↔ ∃ b ∈ C.bases, notPrivate b ∧ b.record = some j := by
  simp only [nonPrivateBases, List.mem_filterMap, notPrivate]
  constructor
  · rintro ⟨b, hb, h⟩
    split at h
    · exact ⟨b, hb, by simpa using (by assumption : (b.access != .priv) = true), h⟩
    · cases h
  · rintro ⟨b, hb, h, hr⟩
    exact ⟨b, hb, by simp [h, hr]⟩

/-- Induction over the calls of `overrideStep`. -/
theorem overridesF_induct (P : TrampolineState → Prop) (hstep : ∀ s i m, m ∈ (E.cls i).methods → P s → P (overrideStep E i s m)) :
    ∀ (n : Nat) (s : TrampolineState) (i : Nat), P s → P (overridesF E n s i)
  | 0, _, _, h => h
  | n + 1, s, i, h => by
    have h1 : ∀ (ms : List Func) (s : TrampolineState), (∀ m ∈ ms, m ∈ (E.cls i).methods) → P s → P (ms.foldl (overrideStep E i) s) := by
      intro ms
      induction ms with
      | nil => intro s _ h; exact h
      | cons m ms ih => intro s hm h; exact ih _ (fun x hx => hm x (by simp [hx])) (hstep s i m (hm m (by simp)) h)
    have h2 : ∀ (js : List Nat) (s : TrampolineState), P s → P (js.foldl (overridesF E n) s) := by
      intro js
      induction js with
      | nil => intro s h; exact h
      | cons j js ih => intro s h; exact ih _ (overridesF_induct P hstep n s j h)
    exact h2 _ _ (h1 _ _ (fun _ h => h) h)

/-- The result of `overrideStep`. -/
theorem overrideStep_cases (i : Nat) (s : TrampolineState) (m : Func) :
    (overrideStep E i s m = s ∧ (overridable E m = false ∨ overrideKey E m ∈ s.binded)) ∨
    (overridable E m = true ∧ overrideKey E m ∉ s.binded ∧ methodFinal m = true ∧
      overrideStep E i s m = { s with binded := overrideKey E m :: s.binded }) ∨
    (overridable E m = true ∧ overrideKey E m ∉ s.binded ∧ methodFinal m = false ∧
      ((overrideReturn E m).contains ',' = true ∧ overrideStep E i s m =
        { binded := overrideKey E m :: s.binded, retId := s.retId + 1, out := s.out ++ [⟨i, m, some s.retId⟩] } ∨
       (overrideReturn E m).contains ',' = false ∧ overrideStep E i s m =
        { binded := overrideKey E m :: s.binded, retId := s.retId, out := s.out ++ [⟨i, m, none⟩] })) := by
  unfold overrideStep
  split
  · left; exact ⟨rfl, .inl (by simpa using ‹(!overridable E m) = true›)⟩
  · rename_i h
    split
    · left; exact ⟨rfl, .inr (by simpa using ‹s.binded.contains (overrideKey E m) = true›)⟩
    · rename_i h'
      have hk : overrideKey E m ∉ s.binded := by simpa using h'
      have ho : overridable E m = true := by simpa using h
      dsimp only
      split
      · right; left; exact ⟨ho, hk, by assumption, rfl⟩
      · rename_i hf
        right; right
        refine ⟨ho, hk, by simpa using hf, ?_⟩
        split
        · left; exact ⟨by assumption, rfl⟩
        · right; exact ⟨by simpa using (by assumption : ¬ (overrideReturn E m).contains ',' = true), rfl⟩

theorem step_binded_mono (i : Nat) (s : TrampolineState) (m : Func) : ∀ k ∈ s.binded, k ∈ (overrideStep E i s m).binded := by
  intro k hk
  rcases overrideStep_cases E i s m with h | h | ⟨_, _, _, h | h⟩
  · rw [h.1]; exact hk
  · rw [h.2.2.2]; simp [hk]
  · rw [h.2]; simp [hk]
  · rw [h.2]; simp [hk]

theorem step_marks (i : Nat) (s : TrampolineState) (m : Func) (hm : overridable E m = true) :
    overrideKey E m ∈ (overrideStep E i s m).binded := by
  rcases overrideStep_cases E i s m with h | h | ⟨_, _, _, h | h⟩
  · rw [h.1]; rcases h.2 with h | h
    · rw [hm] at h; cases h
    · exact h
  · rw [h.2.2.2]; simp
  · rw [h.2]; simp
  · rw [h.2]; simp

theorem methods_binded_mono (i : Nat) : ∀ (ms : List Func) (s : TrampolineState), ∀ k ∈ s.binded, k ∈ (ms.foldl (overrideStep E i) s).binded
  | [], _, _, h => h
  | m :: ms, s, k, h => methods_binded_mono i ms _ k (step_binded_mono E i s m k h)

theorem methods_mark (i : Nat) : ∀ (ms : List Func) (s : TrampolineState), ∀ m ∈ ms, overridable E m = true →
    overrideKey E m ∈ (ms.foldl (overrideStep E i) s).binded
  | [], _, _, h, _ => by cases h
  | x :: ms, s, m, h, ho => by
    rcases List.mem_cons.1 h with rfl | h
    · exact methods_binded_mono E i ms _ _ (step_marks E i s m ho)
    · exact methods_mark i ms _ m h ho

theorem overridesF_binded_mono (n : Nat) (s : TrampolineState) (i : Nat) : ∀ k ∈ s.binded, k ∈ (overridesF E n s i).binded := by
  intro k hk
  exact overridesF_induct E (fun s => k ∈ s.binded) (fun s i m _ h => step_binded_mono E i s m k h) n s i hk

theorem bases_binded_mono (n : Nat) : ∀ (js : List Nat) (s : TrampolineState), ∀ k ∈ s.binded, k ∈ (js.foldl (overridesF E n) s).binded
  | [], _, _, h => h
  | j :: js, s, k, h => bases_binded_mono n js _ k (overridesF_binded_mono E n s j k h)

/-- Where an emitted function comes from: it is new, and nothing with its signature comes before it on the way down to its class. -/
theorem overridesF_source : ∀ (n : Nat) (s : TrampolineState) (i : Nat), ∀ o ∈ (overridesF E n s i).out, o ∈ s.out ∨
    (overrideKey E o.method ∉ s.binded ∧ o.method ∈ (E.cls o.cls).methods ∧ overridable E o.method = true ∧ methodFinal o.method = false ∧
     FirstAlong E notPrivate (fun c => ∃ m ∈ (E.cls c).methods, overridable E m = true ∧ overrideKey E m = overrideKey E o.method) i o.cls)
  | 0, _, _, _, h => .inl h
  | n + 1, s, i, o, h => by
    have hm : ∀ (ms : List Func) (s : TrampolineState), (∀ m ∈ ms, m ∈ (E.cls i).methods) → ∀ o ∈ (ms.foldl (overrideStep E i) s).out,
        o ∈ s.out ∨ (overrideKey E o.method ∉ s.binded ∧ o.method ∈ (E.cls i).methods ∧ overridable E o.method = true ∧
          methodFinal o.method = false ∧ o.cls = i) := by
      intro ms
      induction ms with
      | nil => intro s _ o h; exact .inl h
      | cons m ms ih =>
        intro s hms o ho
        rcases ih _ (fun x hx => hms x (by simp [hx])) o ho with h | ⟨hk, h⟩
        · rcases overrideStep_cases E i s m with e | e | ⟨a, b, c, e | e⟩
          · rw [e.1] at h; exact .inl h
          · rw [e.2.2.2] at h; exact .inl h
          · rw [e.2] at h
            rcases List.mem_append.1 h with h | h
            · exact .inl h
            · simp only [List.mem_singleton] at h; subst h
              exact .inr ⟨b, hms m (by simp), a, c, rfl⟩
          · rw [e.2] at h
            rcases List.mem_append.1 h with h | h
            · exact .inl h
            · simp only [List.mem_singleton] at h; subst h
              exact .inr ⟨b, hms m (by simp), a, c, rfl⟩
        · exact .inr ⟨fun hs => hk (step_binded_mono E i s m _ hs), h⟩
    have hb : ∀ (js : List Nat) (s : TrampolineState), ∀ o ∈ (js.foldl (overridesF E n) s).out,
        o ∈ s.out ∨ ∃ j ∈ js, (overrideKey E o.method ∉ s.binded ∧ o.method ∈ (E.cls o.cls).methods ∧ overridable E o.method = true ∧
          methodFinal o.method = false ∧
          FirstAlong E notPrivate (fun c => ∃ m ∈ (E.cls c).methods, overridable E m = true ∧ overrideKey E m = overrideKey E o.method) j o.cls) := by
      intro js
      induction js with
      | nil => intro s o h; exact .inl h
      | cons j js ih =>
        intro s o ho
        rcases ih _ o ho with h | ⟨j', hj', hk, h⟩
        · rcases overridesF_source n s j o h with h | h
          · exact .inl h
          · exact .inr ⟨j, by simp, h⟩
        · exact .inr ⟨j', by simp [hj'], fun hs => hk (overridesF_binded_mono E n s j _ hs), h⟩
    rcases hb _ _ o h with h | ⟨j, hj, hk, h1, h2, h3, h4⟩
    · rcases hm _ _ (fun _ h => h) o h with h | ⟨hk, h1, h2, h3, h4⟩
      · exact .inl h
      · exact .inr ⟨hk, h4 ▸ h1, h2, h3, h4 ▸ .here⟩
    · obtain ⟨b, hb, hnp, hr⟩ := mem_nonPrivateBases.1 hj
      refine .inr ⟨fun hs => hk (methods_binded_mono E i _ _ _ hs), h1, h2, h3, .down ?_ hb hnp hr h4⟩
      rintro ⟨m, hm', ho, hkey⟩
      exact hk (hkey ▸ methods_mark E i _ s m hm' ho)

theorem overrides_source {i : Nat} {o : Override} (h : o ∈ overrides E i) :
    o.method ∈ (E.cls o.cls).methods ∧ overridable E o.method = true ∧ methodFinal o.method = false ∧
    FirstAlong E notPrivate (fun c => ∃ m ∈ (E.cls c).methods, overridable E m = true ∧ overrideKey E m = overrideKey E o.method) i o.cls := by
  rcases overridesF_source E _ _ _ o h with h | h
  · cases h
  · exact h.2

/-- Invariant for C50. -/
def TrampolineInv (s : TrampolineState) : Prop :=
  (∀ o ∈ s.out, overrideKey E o.method ∈ s.binded) ∧ (s.out.map fun o => overrideKey E o.method).Nodup ∧
  (∀ o ∈ s.out, ∀ k, o.alias = some k → k < s.retId) ∧ (s.out.filterMap (·.alias)).Nodup ∧
  (∀ o ∈ s.out, o.alias.isSome = (overrideReturn E o.method).contains ',')

theorem step_inv (i : Nat) (s : TrampolineState) (m : Func) (h : TrampolineInv E s) : TrampolineInv E (overrideStep E i s m) := by
  obtain ⟨h1, h2, h3, h4, h5⟩ := h
  rcases overrideStep_cases E i s m with e | e | ⟨_, hk, _, e | e⟩
  · rw [e.1]; exact ⟨h1, h2, h3, h4, h5⟩
  · rw [e.2.2.2]; exact ⟨fun o ho => by simp [h1 o ho], h2, h3, h4, h5⟩
  · rw [e.2]
    refine ⟨?_, ?_, ?_, ?_, ?_⟩
    · intro o ho
      rcases List.mem_append.1 ho with ho | ho
      · simp [h1 o ho]
      · simp only [List.mem_singleton] at ho; subst ho; simp
    · rw [List.map_append, List.nodup_append]
      refine ⟨h2, by simp, ?_⟩
      intro a ha b hb hab
      simp only [List.map_cons, List.map_nil, List.mem_singleton] at hb
      obtain ⟨o, ho, rfl⟩ := List.mem_map.1 ha
      exact hk (hb ▸ hab ▸ h1 o ho)
    · intro o ho k hok
      rcases List.mem_append.1 ho with ho | ho
      · have := h3 o ho k hok; simp only; omega
      · simp only [List.mem_singleton] at ho; subst ho; simp only [Option.some.injEq] at hok; simp only; omega
    · rw [List.filterMap_append, List.nodup_append]
      refine ⟨h4, by simp, ?_⟩
      intro a ha b hb hab
      simp only [List.filterMap_cons, List.filterMap_nil, List.mem_singleton] at hb
      obtain ⟨o, ho, hoa⟩ := List.mem_filterMap.1 ha
      have := h3 o ho a hoa; omega
    · intro o ho
      rcases List.mem_append.1 ho with ho | ho
      · exact h5 o ho
      · simp only [List.mem_singleton] at ho; subst ho; rw [e.1]; rfl
  · rw [e.2]
    refine ⟨?_, ?_, ?_, ?_, ?_⟩
    · intro o ho
      rcases List.mem_append.1 ho with ho | ho
      · simp [h1 o ho]
      · simp only [List.mem_singleton] at ho; subst ho; simp
    · rw [List.map_append, List.nodup_append]
      refine ⟨h2, by simp, ?_⟩
      intro a ha b hb hab
      simp only [List.map_cons, List.map_nil, List.mem_singleton] at hb
      obtain ⟨o, ho, rfl⟩ := List.mem_map.1 ha
      exact hk (hb ▸ hab ▸ h1 o ho)
    · intro o ho k hok
      rcases List.mem_append.1 ho with ho | ho
      · exact h3 o ho k hok
      · simp only [List.mem_singleton] at ho; subst ho; cases hok
    · rw [List.filterMap_append]; simpa using h4
    · intro o ho
      rcases List.mem_append.1 ho with ho | ho
      · exact h5 o ho
      · simp only [List.mem_singleton] at ho; subst ho; rw [e.1]; rfl

theorem overrides_inv (i : Nat) : TrampolineInv E (overridesF E (E.baseRank i + 1) ⟨[], 0, []⟩ i) :=
  overridesF_induct E _ (fun s i m _ h => step_inv E i s m h) _ _ _
    (by simp [TrampolineInv])

/-- Every key that was marked belongs to an emitted or to a final function. -/
theorem overridesF_marked (root : Nat) : ∀ (n : Nat) (s : TrampolineState) (i : Nat), Inherits E notPrivate root i →
    (∀ k ∈ s.binded, (∃ o ∈ s.out, overrideKey E o.method = k) ∨
      ∃ c, Inherits E notPrivate root c ∧ ∃ f ∈ (E.cls c).methods, methodFinal f = true ∧ overrideKey E f = k) →
    (∀ k ∈ (overridesF E n s i).binded, (∃ o ∈ (overridesF E n s i).out, overrideKey E o.method = k) ∨
      ∃ c, Inherits E notPrivate root c ∧ ∃ f ∈ (E.cls c).methods, methodFinal f = true ∧ overrideKey E f = k)
  | 0, _, _, _, h => h
  | n + 1, s, i, hi, h => by
    have hm : ∀ (ms : List Func) (s : TrampolineState), (∀ m ∈ ms, m ∈ (E.cls i).methods) →
        (∀ k ∈ s.binded, (∃ o ∈ s.out, overrideKey E o.method = k) ∨
          ∃ c, Inherits E notPrivate root c ∧ ∃ f ∈ (E.cls c).methods, methodFinal f = true ∧ overrideKey E f = k) →
        (∀ k ∈ (ms.foldl (overrideStep E i) s).binded, (∃ o ∈ (ms.foldl (overrideStep E i) s).out, overrideKey E o.method = k) ∨
          ∃ c, Inherits E notPrivate root c ∧ ∃ f ∈ (E.cls c).methods, methodFinal f = true ∧ overrideKey E f = k) := by
      intro ms
      induction ms with
      | nil => intro s _ h; exact h
      | cons m ms ih =>
        intro s hms h
        refine ih _ (fun x hx => hms x (by simp [hx])) ?_
        intro k hk
        rcases overrideStep_cases E i s m with e | e | ⟨_, _, _, e | e⟩
        · rw [e.1] at hk ⊢; exact h k hk
        · rw [e.2.2.2] at hk ⊢
          rcases List.mem_cons.1 hk with rfl | hk
          · exact .inr ⟨i, hi, m, hms m (by simp), e.2.2.1, rfl⟩
          · exact h k hk
        · rw [e.2] at hk ⊢
          rcases List.mem_cons.1 hk with rfl | hk
          · exact .inl ⟨_, List.mem_append_right _ (List.mem_singleton.2 rfl), rfl⟩
          · rcases h k hk with ⟨o, ho, hok⟩ | h
            · exact .inl ⟨o, List.mem_append_left _ ho, hok⟩
            · exact .inr h
        · rw [e.2] at hk ⊢
          rcases List.mem_cons.1 hk with rfl | hk
          · exact .inl ⟨_, List.mem_append_right _ (List.mem_singleton.2 rfl), rfl⟩
          · rcases h k hk with ⟨o, ho, hok⟩ | h
            · exact .inl ⟨o, List.mem_append_left _ ho, hok⟩
            · exact .inr h
    have hb : ∀ (js : List Nat) (s : TrampolineState), (∀ j ∈ js, Inherits E notPrivate root j) →
        (∀ k ∈ s.binded, (∃ o ∈ s.out, overrideKey E o.method = k) ∨
          ∃ c, Inherits E notPrivate root c ∧ ∃ f ∈ (E.cls c).methods, methodFinal f = true ∧ overrideKey E f = k) →
        (∀ k ∈ (js.foldl (overridesF E n) s).binded, (∃ o ∈ (js.foldl (overridesF E n) s).out, overrideKey E o.method = k) ∨
          ∃ c, Inherits E notPrivate root c ∧ ∃ f ∈ (E.cls c).methods, methodFinal f = true ∧ overrideKey E f = k) := by
      intro js
      induction js with
      | nil => intro s _ h; exact h
      | cons j js ih =>
        intro s hjs h
        exact ih _ (fun x hx => hjs x (by simp [hx])) (overridesF_marked root n s j (hjs j (by simp)) h)
    have trans : ∀ {a b c}, Inherits E notPrivate a b → Inherits E notPrivate b c → Inherits E notPrivate a c := by
      intro a b c h1 h2
      induction h1 with
      | refl => exact h2
      | step hb hok hr _ ih => exact .step hb hok hr (ih h2)
    refine hb _ _ ?_ (hm _ _ (fun _ h => h) h)
    intro j hj
    obtain ⟨b, hbm, hnp, hr⟩ := mem_nonPrivateBases.1 hj
    exact trans hi (.step hbm hnp hr .refl)

/-- Every function that can be overridden in a class of the hierarchy gets marked, given enough fuel. -/
theorem overridesF_complete (hw : E.Wellfounded) {i c : Nat} (h : Inherits E notPrivate i c) : ∀ (n : Nat), E.baseRank i < n →
    ∀ (s : TrampolineState), ∀ m ∈ (E.cls c).methods, overridable E m = true → overrideKey E m ∈ (overridesF E n s i).binded := by
  induction h with
  | refl =>
    intro n hn s m hm ho
    cases n with
    | zero => omega
    | succ n => exact bases_binded_mono E n _ _ _ (methods_mark E _ _ s m hm ho)
  | @step i j k b hb hok hr _ ih =>
    intro n hn s m hm ho
    cases n with
    | zero => omega
    | succ n =>
      have hrank := hw.bases i b hb j hr
      have hj : j ∈ nonPrivateBases (E.cls i) := mem_nonPrivateBases.2 ⟨b, hb, hok, hr⟩
      obtain ⟨l1, l2, hl⟩ := List.append_of_mem hj
      simp only [overridesF]
      rw [hl, List.foldl_append, List.foldl_cons]
      exact bases_binded_mono E n _ _ _ (ih n (by omega) _ m hm ho)

theorem overrides_complete (hw : E.Wellfounded) {i c : Nat} (h : Inherits E notPrivate i c) {m : Func} (hm : m ∈ (E.cls c).methods)
    (ho : overridable E m = true) : (∃ o ∈ overrides E i, overrideKey E o.method = overrideKey E m) ∨
      ∃ c, Inherits E notPrivate i c ∧ ∃ f ∈ (E.cls c).methods, methodFinal f = true ∧ overrideKey E f = overrideKey E m :=
  overridesF_marked E i _ ⟨[], 0, []⟩ i .refl (by intro _ h; cases h) _ (overridesF_complete E hw h _ (Nat.lt_succ_self _) _ m hm ho)

/-! ## Const overloads -/

/-- The name of a function without `const` after it. -/
theorem functionQualifiedName_const (m : Func) (hc : m.isConst = true) :
    functionQualifiedName E m true = fixBooleanTypes (stdName E (m.qname ++ functionTemplateText E m) ++ c!"(" ++ functionArguments E m ++ c!")") ++
      c!" const" := by
  unfold functionQualifiedName maybeConst
  rw [hc]
  simp only [if_true, List.nil_append]
  have e : ∀ x : Str, x ++ c!" const" = x ++ c!" " ++ c!"const" := by intro x; simp
  rw [e, fixBool_append_seps c!" " (by decide) (by decide), fixBool_no_underscore c!"const" (by decide), e]

theorem isConstOverload_iff (m : Func) (mi : Method) (hm : m.method = some mi) :
    isConstOverload E m = true ↔ m.isConst = true ∧ ∃ g ∈ (E.cls mi.parent).methods, g.access = mi.access ∧ g.isConst = false ∧
      functionQualifiedName E m true = functionQualifiedName E g true ++ c!" const" := by
  have hcc : m.isConst = mi.isConst := by simp [Func.isConst, hm]
  cases hc : mi.isConst with
  | false => simp [isConstOverload, hm, hc, hcc]
  | true =>
    have hq := functionQualifiedName_const E m (hcc.trans hc)
    generalize fixBooleanTypes _ = q at hq
    have hl : c!" const".length = 6 := rfl
    have ht : (functionQualifiedName E m true).take ((functionQualifiedName E m true).length - 6) = q := by
      rw [hq, List.length_append, hl, Nat.add_sub_cancel, List.take_left']
      rfl
    simp only [isConstOverload, hm, hc, Bool.true_and, ht, hcc, true_and, Bool.and_eq_true, decide_eq_true_eq, List.any_eq_true, beq_iff_eq,
      Bool.not_eq_true']
    constructor
    · rintro ⟨_, g, hg, ⟨h1, h2⟩, h3⟩
      exact ⟨g, hg, h1, h2, by rw [hq, h3]⟩
    · rintro ⟨g, hg, h1, h2, h3⟩
      have h4 : functionQualifiedName E g true = q := by
        rw [hq] at h3; exact (List.append_cancel_right h3).symm
      refine ⟨?_, g, hg, ⟨h1, h2⟩, h4⟩
      rw [hq, List.length_append, hl, ← h4]
      have : 0 < (functionQualifiedName E g true).length := by
        unfold functionQualifiedName maybeConst
        simp only [h2, Bool.false_eq_true, if_false, List.append_nil]
        rw [fixBool_seps_right c!")" (by decide)]
        simp
      omega

/-! ## Decisions -/

theorem callbackNeededF_stable (hw : E.Wellfounded) : ∀ (n m i : Nat), E.baseRank i < n → E.baseRank i < m →
    callbackNeededF E n i = callbackNeededF E m i
  | 0, _, _, h, _ => by omega
  | _, 0, _, _, h => by omega
  | n + 1, m + 1, i, h1, h2 => by
    have : (nonPrivateBases (E.cls i)).any (callbackNeededF E n) = (nonPrivateBases (E.cls i)).any (callbackNeededF E m) := by
      rw [Bool.eq_iff_iff]; simp only [List.any_eq_true]
      have : ∀ j ∈ nonPrivateBases (E.cls i), callbackNeededF E n j = callbackNeededF E m j := by
        intro j hj
        obtain ⟨b, hb, _, hr⟩ := mem_nonPrivateBases.1 hj
        have := hw.bases i b hb j hr
        exact callbackNeededF_stable hw n m j (by omega) (by omega)
      constructor
      · rintro ⟨j, hj, h⟩; exact ⟨j, hj, this j hj ▸ h⟩
      · rintro ⟨j, hj, h⟩; exact ⟨j, hj, (this j hj).symm ▸ h⟩
    simp only [callbackNeededF, this]

theorem callbackNeeded_eq (hw : E.Wellfounded) (i : Nat) : callbackNeeded E i =
    (if (E.cls i).isAbstract && (E.cls i).methods.any (fun m => m.isPure && isConstOverload E m) then false
     else if (E.cls i).isFinal then false
     else (E.cls i).methods.any (fun m => m.access != .priv && functionBindable E m && m.isVirtual && !m.isDtor) ||
      (nonPrivateBases (E.cls i)).any (callbackNeeded E)) := by
  have : (nonPrivateBases (E.cls i)).any (callbackNeededF E (E.baseRank i)) = (nonPrivateBases (E.cls i)).any (callbackNeeded E) := by
    have : ∀ j ∈ nonPrivateBases (E.cls i), callbackNeededF E (E.baseRank i) j = callbackNeeded E j := by
      intro j hj
      obtain ⟨b, hb, _, hr⟩ := mem_nonPrivateBases.1 hj
      exact callbackNeededF_stable E hw _ _ j (hw.bases i b hb j hr) (Nat.lt_succ_self _)
    rw [Bool.eq_iff_iff]; simp only [List.any_eq_true]
    constructor
    · rintro ⟨j, hj, h⟩; exact ⟨j, hj, this j hj ▸ h⟩
    · rintro ⟨j, hj, h⟩; exact ⟨j, hj, (this j hj).symm ▸ h⟩
  simp only [callbackNeeded, callbackNeededF] at this ⊢
  rw [this]

theorem baseConstructible_congr {i : Nat} {f g : Nat → Bool} (h : ∀ b ∈ (E.cls i).bases, ∀ j, b.record = some j → f j = g j) :
    (E.cls i).bases.all (baseConstructible E f) = (E.cls i).bases.all (baseConstructible E g) := by
  have : ∀ b ∈ (E.cls i).bases, baseConstructible E f b = baseConstructible E g b := by
    intro b hb
    unfold baseConstructible
    cases hr : b.record with
    | none => rfl
    | some j => simp only [h b hb j hr]
  rw [Bool.eq_iff_iff]; simp only [List.all_eq_true]
  constructor
  · intro h b hb; exact this b hb ▸ h b hb
  · intro h b hb; exact (this b hb).symm ▸ h b hb

theorem callbackConstructibleF_stable (hw : E.Wellfounded) : ∀ (n m i : Nat), E.baseRank i < n → E.baseRank i < m →
    callbackConstructibleF E n i = callbackConstructibleF E m i
  | 0, _, _, h, _ => by omega
  | _, 0, _, _, h => by omega
  | n + 1, m + 1, i, h1, h2 => by
    simp only [callbackConstructibleF]
    rw [baseConstructible_congr E (f := callbackConstructibleF E n) (g := callbackConstructibleF E m)]
    intro b hb j hr
    have := hw.bases i b hb j hr
    exact callbackConstructibleF_stable hw n m j (by omega) (by omega)

theorem callbackConstructible_eq (hw : E.Wellfounded) (i : Nat) : callbackConstructible E i =
    (!(E.cls i).isAbstract ||
      (!(E.cls i).methods.any (pureBlocked E) && (E.cls i).bases.all (baseConstructible E (callbackConstructible E)))) := by
  rw [← baseConstructible_congr E (f := callbackConstructibleF E (E.baseRank i)) (g := callbackConstructible E)]
  · rfl
  · intro b hb j hr
    exact callbackConstructibleF_stable E hw _ _ j (hw.bases i b hb j hr) (Nat.lt_succ_self _)

/-- Along abstract classes, a constructible callback structure has no private bases and no pure function that it cannot override. -/
theorem constructible_path (hw : E.Wellfounded) {i j : Nat} (h : AbstractPath E i j) : callbackConstructible E i = true →
    Inherits E notPrivate i j ∧ (E.cls j).methods.any (pureBlocked E) = false := by
  induction h with
  | refl ha =>
    intro hc
    rw [callbackConstructible_eq E hw, ha] at hc
    simp only [Bool.not_true, Bool.false_or, Bool.and_eq_true] at hc
    exact ⟨.refl, by simpa using hc.1⟩
  | @step i j k b ha hb hr hjk ih =>
    intro hc
    rw [callbackConstructible_eq E hw, ha] at hc
    simp only [Bool.not_true, Bool.false_or, Bool.and_eq_true, List.all_eq_true] at hc
    have h1 := hc.2 b hb
    simp only [baseConstructible, hr] at h1
    have hja : (E.cls j).isAbstract = true := by cases hjk <;> assumption
    split at h1
    · rename_i hnp
      obtain ⟨h2, h3⟩ := ih h1
      exact ⟨.step hb (by simpa [notPrivate] using hnp) hr h2, h3⟩
    · rw [hja] at h1; cases h1

end Binder
