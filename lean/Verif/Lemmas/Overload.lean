import Verif.Spec.Overload
import Verif.Model.Queries
import Verif.Lemmas.Function

/-! # Lemmas for `Props/Overload.lean` -/

namespace Binder

open Cxx Spec

/-- The expression for a lambda parameter that stands for a parameter of canonical type `c`. -/
def argOf (c : Ty) : Arg :=
  match c with
  | .lref u => ⟨u.unqual, u.isConst⟩
  | .ptr u => ⟨.ptr u, false⟩
  | c => ⟨c.unqual, true⟩

theorem canon_shape : ∀ t : Ty,
    (returnKind t = none → (∀ u, t.canon ≠ .lref u) ∧ (∀ u, t.canon ≠ .rref u) ∧ (∀ u, t.canon ≠ .ptr u) ∧ (t.isConst = true → t.canon.isConst = true)) ∧
    (returnKind t = some .pointer → ∃ u, t.canon = .ptr u ∨ t.canon = .const (.ptr u)) ∧
    ((returnKind t = some .lvalueReference ∨ returnKind t = some .rvalueReference) → ∃ u, t.canon = .lref u ∨ t.canon = .rref u) := by
  intro t
  induction t using Ty.rec (motive_2 := fun _ => True) with
  | basic k => simp [returnKind, Ty.canon, Ty.isConst]
  | dep k => simp [returnKind, Ty.canon, Ty.isConst]
  | ptr t ih => simp [returnKind, Ty.canon]
  | lref t ih =>
    refine ⟨by simp [returnKind], by simp [returnKind], fun _ => ?_⟩
    rw [Ty.canon]; unfold Ty.mkLRef; split <;> simp
  | rref t ih =>
    refine ⟨by simp [returnKind], by simp [returnKind], fun _ => ?_⟩
    rw [Ty.canon]; unfold Ty.mkRRef; split <;> simp
  | arr t ih => simp [returnKind, Ty.canon, Ty.isConst]
  | fn r ps ih ihs => simp [returnKind, Ty.canon, Ty.isConst]
  | record i => simp [returnKind, Ty.canon, Ty.isConst]
  | enum i => simp [returnKind, Ty.canon, Ty.isConst]
  | sugar k t ih => simpa only [returnKind, Ty.canon, Ty.isConst] using ih
  | const t ih =>
    obtain ⟨h1, h2, h3⟩ := ih
    simp only [returnKind, Ty.canon]
    refine ⟨fun h => ?_, fun h => ?_, fun h => ?_⟩
    · obtain ⟨a, b, c, -⟩ := h1 h
      unfold Ty.mkConst
      split <;> simp_all [Ty.isConst]
    · obtain ⟨u, hu | hu⟩ := h2 h <;> rw [hu] <;> simp [Ty.mkConst]
    · obtain ⟨u, hu | hu⟩ := h3 h <;> rw [hu] <;> simp [Ty.mkConst]
  | nil => trivial
  | cons => trivial

/-- The suffix that the program puts after a type. -/
def lambdaSuffix (t : Ty) : Str := if returnKind t = none then (if t.isConst then c!" & " else c!" const & ") else c!" "

theorem unqual_mkConst {c : Ty} : c.mkConst.unqual = c.unqual := by
  unfold Ty.mkConst; split <;> simp [Ty.unqual]

theorem isFunction_unqual {r : Ty} {ps : List Ty} : ∀ c : Ty, c.unqual = .fn r ps → IsFunction c
  | .const t, h => .const (isFunction_unqual t (by simpa [Ty.unqual] using h))
  | .fn _ _, _ => .fn
  | .basic _, h | .dep _, h | .ptr _, h | .lref _, h | .rref _, h | .arr _, h | .record _, h | .enum _, h | .sugar _ _, h => by
    simp [Ty.unqual] at h

theorem declared_suffix (t : Ty) (hf : ¬ IsFunction t.canon) (hr : ¬ RvalueRef t) :
    ∃ D, declared t (lambdaSuffix t) = some D ∧ variableOf D = argOf t.canon := by
  obtain ⟨h1, h2, h3⟩ := canon_shape t
  have hdecl : ∀ s, declared t s = if s = c!" const & " then some (.lref (.const t)) else if s = c!" & " then some (.lref t)
      else if s = c!" " then some t else none := by
    intro s
    unfold declared
    split
    · exact absurd (isFunction_unqual _ ‹_›) hf
    · rfl
  rw [hdecl]
  unfold lambdaSuffix
  cases hk : returnKind t with
  | none =>
    obtain ⟨a, b, c, d⟩ := h1 hk
    have harg : argOf t.canon = ⟨t.canon.unqual, true⟩ := by
      unfold argOf
      split
      · exact absurd ‹_› (a _)
      · exact absurd ‹_› (c _)
      · rfl
    have hl : t.canon.mkLRef = .lref t.canon := by
      unfold Ty.mkLRef
      split
      · exact absurd ‹_› (a _)
      · exact absurd ‹_› (b _)
      · rfl
    cases hc : t.isConst with
    | true =>
      refine ⟨.lref t, by simp, ?_⟩
      rw [harg, variableOf, Ty.canon, hl]
      simp [d hc]
    | false =>
      refine ⟨.lref (.const t), by simp, ?_⟩
      rw [harg, variableOf, Ty.canon, Ty.canon]
      have hm : t.canon.mkConst = .const t.canon ∨ ∃ u, t.canon = .const u ∧ t.canon.mkConst = .const u := by
        unfold Ty.mkConst
        split
        · exact .inr ⟨_, ‹_›, rfl⟩
        · exact absurd ‹_› (a _)
        · exact absurd ‹_› (b _)
        · exact .inl rfl
      rcases hm with hm | ⟨u, hu, hm⟩
      · rw [hm]; simp [Ty.mkLRef, Ty.unqual, Ty.isConst]
      · rw [hm, hu]; simp [Ty.mkLRef, Ty.unqual, Ty.isConst]
  | some k =>
    refine ⟨t, by simp, ?_⟩
    cases k with
    | pointer =>
      obtain ⟨u, hu | hu⟩ := h2 hk <;> rw [variableOf, hu] <;> simp [argOf, Ty.unqual, Ty.isConst]
    | lvalueReference =>
      obtain ⟨u, hu | hu⟩ := h3 (.inl hk)
      · rw [variableOf, hu]; simp [argOf]
      · exact absurd ⟨u, hu⟩ hr
    | rvalueReference =>
      obtain ⟨u, hu | hu⟩ := h3 (.inr hk)
      · rw [variableOf, hu]; simp [argOf]
      · exact absurd ⟨u, hu⟩ hr

theorem argOf_ty {t : Ty} (hr : ¬ RvalueRef t) : (argOf t.canon).ty = bare t := by
  unfold argOf bare
  cases h : t.canon with
  | rref u => exact absurd ⟨u, h⟩ hr
  | _ => rfl

theorem argOf_nonconst {t : Ty} (hr : ¬ RvalueRef t) : (argOf t.canon).isConst = false ↔ NonConstRef t ∨ NonConstPointer t := by
  unfold argOf NonConstRef NonConstPointer
  cases h : t.canon <;> simp

theorem fits_own {t : Ty} (hr : ¬ RvalueRef t) : FitsParam (argOf t.canon) t :=
  ⟨(argOf_ty hr).symm, hr, fun h => (argOf_nonconst hr).2 (.inl h)⟩

/-- The expressions for the parameters of `F`, by type, fit these parameters. -/
structure Own (av : Ty → Arg) (t : Ty) : Prop where
  fits : FitsParam (av t) t
  const : ConstRef t → (av t).isConst = true

theorem own_argOf {t : Ty} (hr : ¬ RvalueRef t) : Own (fun t => argOf t.canon) t := by
  refine ⟨fits_own hr, ?_⟩
  rintro ⟨u, hu, hc⟩
  simp [argOf, hu, hc]

theorem own_variableOf {t : Ty} (hr : ¬ RvalueRef t) : Own variableOf t := by
  refine ⟨⟨?_, hr, ?_⟩, ?_⟩
  · unfold variableOf bare; split <;> rfl
  · rintro ⟨u, hu, hc⟩; simp [variableOf, hu, hc]
  · rintro ⟨u, hu, hc⟩; simp [variableOf, hu, hc]

/-- A function is not worse than any other for variables that were made for it. -/
theorem own_not_worse {av : Ty → Arg} {t : Ty} (ho : Own av t) (q : Option Ty) : ¬ BetterParam (av t) q (some t) := by
  rintro ⟨u, hq, hfit, h⟩
  rcases h t rfl with h | ⟨h1, h2⟩
  · exact h ho.fits
  · have := hfit.2.2 h1
    rw [ho.const h2] at this
    cases this

/-- When a parameter is better for its own variable. -/
theorem own_better {av : Ty → Arg} {t : Ty} (ho : Own av t) (q : Option Ty) : BetterParam (av t) (some t) q ↔
    ∀ u, q = some u → bare u ≠ bare t ∨ RvalueRef u ∨ (NonConstRef u ∧ (av t).isConst = true) ∨ (NonConstRef t ∧ ConstRef u) := by
  have hty : bare t = (av t).ty := ho.fits.1
  constructor
  · rintro ⟨t', ht, -, h⟩ u hu
    cases ht
    rcases h u hu with h | h
    · by_cases h1 : bare u = bare t
      · by_cases h2 : RvalueRef u
        · exact .inr (.inl h2)
        · by_cases h3 : NonConstRef u
          · right; right; left
            refine ⟨h3, ?_⟩
            cases hc : (av t).isConst with
            | true => rfl
            | false => exact absurd ⟨by rw [h1, hty], h2, fun _ => hc⟩ h
          · exact absurd ⟨by rw [h1, hty], h2, fun x => absurd x h3⟩ h
      · exact .inl h1
    · exact .inr (.inr (.inr h))
  · intro h
    refine ⟨t, rfl, ho.fits, fun u hu => ?_⟩
    rcases h u hu with h | h | ⟨h1, h2⟩ | h
    · exact .inl fun hf => h (by rw [hf.1, hty])
    · exact .inl fun hf => hf.2.1 h
    · exact .inl fun hf => by have := hf.2.2 h1; rw [h2] at this; cases this
    · exact .inr h

/-- The call of `F` with variables for its first `k` parameters. -/
def ownCall (av : Ty → Arg) (F : Func) (k : Nat) : Call :=
  ⟨if F.isInstance then some F.isConst else none, (F.params.take k).map fun p => av p.ty⟩

theorem ownCall_get {av : Ty → Arg} {F : Func} {k i : Nat} {a : Arg} (h : (ownCall av F k).args[i]? = some a) :
    i < k ∧ ∃ p, F.params[i]? = some p ∧ a = av p.ty := by
  simp only [ownCall, List.getElem?_map, List.getElem?_take] at h
  by_cases hi : i < k
  · refine ⟨hi, ?_⟩
    rw [if_pos hi] at h
    cases hp : F.params[i]? with
    | none => simp [hp] at h
    | some p => simp [hp] at h; exact ⟨p, rfl, h.symm⟩
  · simp [hi] at h

theorem ownCall_at {av : Ty → Arg} {F : Func} {k i : Nat} {p : Param} (hi : i < k) (h : F.params[i]? = some p) :
    (ownCall av F k).args[i]? = some (av p.ty) := by
  simp [ownCall, List.getElem?_map, List.getElem?_take, hi, h]

/-- As `TellsApart`, for given expressions. -/
def TellsBy (av : Ty → Arg) (F G : Func) (k : Nat) : Prop :=
  ¬ TakesNumber G k ∨ (F.isInstance = true ∧ G.isInstance = true ∧ F.isConst ≠ G.isConst) ∨
  ∃ i p, i < k ∧ paramTy F i = some p ∧ ∀ q, paramTy G i = some q →
    bare q ≠ bare p ∨ RvalueRef q ∨ (NonConstRef q ∧ (av p).isConst = true) ∨ (NonConstRef p ∧ ConstRef q)

theorem selects_by (av : Ty → Arg) (F : Func) (k : Nat) (hk : k ≤ F.params.length) (hd : ∀ p ∈ F.params.drop k, p.hasDefault = true)
    (hr : ∀ p ∈ F.params, Own av p.ty) (conv : Arg → Ty → Prop) (scope : List Func) (hF : F ∈ scope) :
    Selects conv (ownCall av F k) scope F ↔ ∀ G ∈ scope, G ≠ F → TellsBy av F G k := by
  have hlen : (ownCall av F k).args.length = k := by simp [ownCall]; omega
  have hmem : ∀ {i p}, F.params[i]? = some p → p ∈ F.params := fun h => List.mem_of_getElem? h
  constructor
  · intro hs G hG hne
    apply Classical.byContradiction
    intro hn
    have ht : TakesNumber G k := Classical.byContradiction fun h => hn (.inl h)
    have ho : ¬ (F.isInstance = true ∧ G.isInstance = true ∧ F.isConst ≠ G.isConst) := fun h => hn (.inr (.inl h))
    have hp : ∀ i p, i < k → paramTy F i = some p → ¬ ∀ q, paramTy G i = some q → bare q ≠ bare p ∨ RvalueRef q ∨
        (NonConstRef q ∧ (av p).isConst = true) ∨ (NonConstRef p ∧ ConstRef q) :=
      fun i p h1 h2 h3 => hn (.inr (.inr ⟨i, p, h1, h2, h3⟩))
    have hb : ∀ (i : Nat) (a : Arg), (ownCall av F k).args[i]? = some a → ¬ BetterParam a (paramTy F i) (paramTy G i) := by
      intro i a ha hbt
      obtain ⟨hi, p, hp', rfl⟩ := ownCall_get ha
      have hpt : paramTy F i = some p.ty := by simp [paramTy, hp']
      rw [hpt] at hbt
      exact hp i p.ty hi hpt ((own_better (hr p (hmem hp')) _).1 hbt)
    have hbo : ¬ BetterObject (ownCall av F k) F G := fun ⟨_, h1, h2, h3, h4⟩ => ho ⟨h1, h2, by simp [h3, h4]⟩
    have hv : Viable conv (ownCall av F k) G := by
      refine ⟨by rw [hlen]; exact ht, ?_, ?_⟩
      · intro h1 h2
        by_cases hi : F.isInstance = true
        · have : F.isConst = true := by simpa [ownCall, hi] using h1
          apply Classical.byContradiction
          intro h3
          exact ho ⟨hi, h2, by rw [this]; exact fun e => h3 e.symm⟩
        · simp [ownCall, hi] at h1
      · intro i a t ha hta
        obtain ⟨hi, p, hp', rfl⟩ := ownCall_get ha
        have hpt : paramTy F i = some p.ty := by simp [paramTy, hp']
        apply Classical.byContradiction
        intro hnf
        refine hb i _ ha ?_
        rw [hpt]
        exact ⟨p.ty, rfl, (hr p (hmem hp')).fits, fun u hu => .inl fun hf => hnf (.inl (by
          rw [hta] at hu; cases hu; exact hf))⟩
    rcases (hs.best G hG hne hv).once with ⟨i, a, ha, h⟩ | h
    · exact hb i a ha h
    · exact hbo h
  · intro h
    refine ⟨hF, ⟨by rw [hlen]; exact ⟨hd, .inl hk⟩, ?_, ?_⟩, ?_⟩
    · intro h1 h2
      simpa [ownCall, h2] using h1
    · intro i a t ha hta
      obtain ⟨hi, p, hp', rfl⟩ := ownCall_get ha
      simp [paramTy, hp'] at hta
      subst hta
      exact .inl ((hr p (hmem hp')).fits)
    · intro G hG hne hv
      refine ⟨⟨?_, ?_⟩, ?_⟩
      · intro i a ha
        obtain ⟨hi, p, hp', rfl⟩ := ownCall_get ha
        have hpt : paramTy F i = some p.ty := by simp [paramTy, hp']
        rw [hpt]
        exact own_not_worse (hr p (hmem hp')) _
      · rintro ⟨h1, h2, h3, h4, h5⟩
        simp [ownCall, h3, h5] at h1
      · rcases h G hG hne with h | ⟨h1, h2, h3⟩ | ⟨i, p, hi, hpt, h⟩
        · exact absurd (by have := hv.number; rwa [hlen] at this) h
        · cases hFc : F.isConst with
          | true =>
            have := hv.object (by simp [ownCall, h1, hFc]) h2
            exact absurd (by rw [hFc, this]) h3
          | false =>
            refine .inr ⟨by simp [ownCall, h1, hFc], h1, h2, hFc, ?_⟩
            cases hGc : G.isConst with
            | true => rfl
            | false => exact absurd (by rw [hFc, hGc]) h3
        · refine .inl ⟨i, av p, ?_, ?_⟩
          · simp only [paramTy, Option.map_eq_some_iff] at hpt
            obtain ⟨p', hp', rfl⟩ := hpt
            exact ownCall_at hi hp'
          · rw [hpt]
            simp only [paramTy, Option.map_eq_some_iff] at hpt
            obtain ⟨p', hp', rfl⟩ := hpt
            exact (own_better (hr p' (hmem hp')) _).2 h

theorem tellsBy_argOf {F G : Func} {k : Nat} (hr : ∀ p ∈ F.params, ¬ RvalueRef p.ty) :
    TellsBy (fun t => argOf t.canon) F G k ↔ TellsApart F G k := by
  have h : ∀ i p, paramTy F i = some p → ((argOf p.canon).isConst = true ↔ ¬ NonConstRef p ∧ ¬ NonConstPointer p) := by
    intro i p hp
    simp only [paramTy, Option.map_eq_some_iff] at hp
    obtain ⟨p', hp', rfl⟩ := hp
    have := argOf_nonconst (hr p' (List.mem_of_getElem? hp'))
    rw [← not_or, ← this]
    simp
  unfold TellsBy TellsApart
  refine or_congr Iff.rfl (or_congr Iff.rfl (exists_congr fun i => exists_congr fun p => and_congr_right fun _ => and_congr_right fun hp => ?_))
  rw [h i p hp]

theorem selects_iff (F : Func) (k : Nat) (hk : k ≤ F.params.length) (hd : ∀ p ∈ F.params.drop k, p.hasDefault = true)
    (hr : ∀ p ∈ F.params, ¬ RvalueRef p.ty) (conv : Arg → Ty → Prop) (scope : List Func) (hF : F ∈ scope) :
    Selects conv (ownCall (fun t => argOf t.canon) F k) scope F ↔ ∀ G ∈ scope, G ≠ F → TellsApart F G k := by
  rw [selects_by _ F k hk hd (fun p hp => own_argOf (hr p hp)) conv scope hF]
  simp only [tellsBy_argOf hr]

theorem variableOf_const (t : Ty) (hr : ¬ RvalueRef t) : (variableOf t).isConst = true ↔ ConstRef t ∨ t.canon.isConst = true := by
  unfold variableOf ConstRef
  cases h : t.canon with
  | rref u => exact absurd ⟨u, h⟩ hr
  | lref u => simp [Ty.isConst]
  | _ => simp

theorem selects_plain (F : Func) (k : Nat) (hk : k ≤ F.params.length) (hd : ∀ p ∈ F.params.drop k, p.hasDefault = true)
    (hr : ∀ p ∈ F.params, ¬ RvalueRef p.ty) (conv : Arg → Ty → Prop) (scope : List Func) (hF : F ∈ scope) :
    Selects conv (ownCall variableOf F k) scope F ↔ ∀ G ∈ scope, G ≠ F → TellsApartPlain F G k := by
  rw [selects_by _ F k hk hd (fun p hp => own_variableOf (hr p hp)) conv scope hF]
  have h : ∀ i p, paramTy F i = some p → ((variableOf p).isConst = true ↔ ConstRef p ∨ p.canon.isConst = true) := by
    intro i p hp
    simp only [paramTy, Option.map_eq_some_iff] at hp
    obtain ⟨p', hp', rfl⟩ := hp
    exact variableOf_const _ (hr p' (List.mem_of_getElem? hp'))
  refine forall_congr' fun G => forall_congr' fun _ => forall_congr' fun _ => ?_
  unfold TellsBy TellsApartPlain
  refine or_congr Iff.rfl (or_congr Iff.rfl (exists_congr fun i => exists_congr fun p => and_congr_right fun _ => and_congr_right fun hp => ?_))
  rw [h i p hp]

theorem passes_iff (av : Ty → Arg) (F : Func) (k : Nat) (hk : k ≤ F.params.length) (copyable : Nat → Prop) :
    Passes copyable (ownCall av F k) F ↔ ∀ p ∈ F.params.take k, ∀ r, p.ty.canon.unqual = .record r → copyable r := by
  have hlen : (ownCall av F k).args.length = k := by simp [ownCall]; omega
  unfold Passes
  rw [hlen]
  constructor
  · intro hp p hpm r hpr
    obtain ⟨j, hj, rfl⟩ := List.getElem_of_mem hpm
    rw [List.length_take] at hj
    refine hp j _ r (by omega) ?_ hpr
    simp [paramTy, show j < F.params.length by omega]
  · intro hp j t r hj ht htr
    simp only [paramTy, Option.map_eq_some_iff] at ht
    obtain ⟨p, hp', rfl⟩ := ht
    exact hp p (List.mem_of_getElem? (i := j) (by rw [List.getElem?_take, if_pos hj, hp'])) r htr

end Binder
