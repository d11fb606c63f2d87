import Verif.Lemmas.Memo
import Verif.Lemmas.Standard
import Verif.Props.Includes
import Verif.Props.Strings

/-!
# C55, C56: cached answers and normalised names
-/

namespace Binder

open Cxx Spec

variable (E : Env)

theorem fresh_afresh : fresh E = afresh E := by
  funext k
  cases k <;> rfl

/-! ## C55 -/

/-- **C55.** Any sequence of calls, starting with empty tables, ends (with enough fuel), and every call is answered as if it was computed
afresh; whatever else was asked before. -/
theorem C55_cache_transparent (hw : E.Wellfounded) (ks : List Call) :
    ∃ n0, ∀ n ≥ n0, ∃ tables, historyF (rawCalls E) n ks (fun _ => none) = some (ks.map (afresh E), tables) := by
  refine ⟨(ks.map (callRank E)).sum + 1, fun n hn => ?_⟩
  obtain ⟨⟨vs, c⟩, h⟩ := historyF_total (rawCalls_rank E hw) n ks (fun _ => none) fun k hk => by
    have := le_sum (List.mem_map_of_mem (f := callRank E) hk)
    omega
  have hr := (historyF_right (rawCalls_eval E hw) n ks _ _ _ h fun k v hv => by cases hv).1
  exact ⟨c, by rw [h, hr, fresh_afresh]⟩

/-- The tables after a history hold right answers only. -/
theorem C55_tables_right (hw : E.Wellfounded) (ks : List Call) (n : Nat) (vs : List Result) (tables : Call → Option Result)
    (h : historyF (rawCalls E) n ks (fun _ => none) = some (vs, tables)) (k : Call) (v : Result) (hv : tables k = some v) : v = afresh E k := by
  rw [← fresh_afresh]
  exact (historyF_right (rawCalls_eval E hw) n ks _ _ _ h fun k v hv => by cases hv).2 k v hv

theorem rawCalls_names (k : Call) (hk : NameCall k) : (rawCalls E k).Calls NameCall ∧ (rawCalls E k).eval (fresh E) = fresh E k := by
  cases k with
  | standard s =>
    refine ⟨?_, by simp only [rawCalls, Ask.eval_bind, eval_standard, Ask.eval, fresh]⟩
    refine Ask.calls_bind ?_ fun _ => True.intro
    unfold standardNameCalls
    generalize applyNameMap s = r
    exact calls_ite ⟨True.intro, fun _ => True.intro⟩ True.intro
  | simplify s => exact ⟨True.intro, rfl⟩
  | cls i => exact hk.elim
  | fn F => exact hk.elim

theorem unitsF_names (simplify : Str → Str) (n : Nat) : ∀ (us : List (Env × List Call)), (∀ u ∈ us, u.1.simplify = simplify) →
    ∀ (E0 : Env), E0.simplify = simplify → ∀ c out, RightOn NameCall (afresh E0) c → unitsF n us c = some out →
    ∀ u vs, (u, vs) ∈ us.zip out → ∀ k v, (k, v) ∈ u.2.zip vs → NameCall k → v = afresh u.1 k := by
  intro us
  induction us with
  | nil => intro _ _ _ c out _ _ u vs h; cases h
  | cons u0 us ih =>
    intro hs E0 h0 c out hc h u vs hu k v hkv hk
    obtain ⟨E1, ks⟩ := u0
    have same : ∀ (A B : Env), A.simplify = B.simplify → ∀ k, NameCall k → afresh A k = afresh B k := by
      intro A B hAB k hk
      cases k with
      | standard s => simp only [afresh, hAB]
      | simplify s => simp only [afresh, hAB]
      | cls i => exact hk.elim
      | fn F => exact hk.elim
    have h1 := hs _ List.mem_cons_self
    simp only [unitsF] at h
    split at h
    · cases h
    · rename_i vs0 c1 hh
      split at h
      · cases h
      · rename_i out' hu'
        cases h
        obtain ⟨a, b⟩ := historyF_rightOn (P := NameCall) (rawCalls_names E1) n ks c vs0 c1 hh fun k v hk hv => by
          rw [hc k v hk hv, fresh_afresh]
          exact same _ _ (h0.trans h1.symm) k hk
        rw [List.zip_cons_cons] at hu
        rcases List.mem_cons.1 hu with e | hu
        · cases e
          rw [a k v hkv hk, fresh_afresh]
        · refine ih (fun u hu => hs u (List.mem_cons_of_mem _ hu)) E1 h1 c1 out' ?_ hu' u vs hu k v hkv hk
          rw [← fresh_afresh]
          exact b

/-- **C55, names.** Names are answered as if computed afresh in every translation unit of a run, though the tables pass from unit to unit. -/
theorem C55_names_every_unit (simplify : Str → Str) (n : Nat) (units : List (Env × List Call)) (hs : ∀ u ∈ units, u.1.simplify = simplify)
    (out : List (List Result)) (h : unitsF n units (fun _ => none) = some out) (u : Env × List Call) (vs : List Result)
    (hu : (u, vs) ∈ units.zip out) (k : Call) (v : Result) (hkv : (k, v) ∈ u.2.zip vs) (hk : NameCall k) : v = afresh u.1 k := by
  cases units with
  | nil => cases hu
  | cons u0 us =>
    exact unitsF_names simplify n (u0 :: us) hs u0.1 (hs _ List.mem_cons_self) _ out (fun k v _ hv => by cases hv) h u vs hu k v hkv hk

/-- The unit after `cyclicClasses`: the address of `A` now belongs to a private class. -/
def nextUnit : Env := { cyclicClasses with cls := fun i => { cyclicClasses.cls i with access := .priv } }

theorem nextUnit_wellfounded : nextUnit.Wellfounded := by
  refine ⟨cyclicClasses_wellfounded.bases, cyclicClasses_wellfounded.args, fun i j hj => ?_⟩
  by_cases h : i = 0 <;> simp [nextUnit, cyclicClasses, h, exampleRecord, Env.nestedClasses] at hj

/-- **C55 fails across translation units**: the tables of the decisions are keyed by the address of the declaration and are never
cleared, so the decision made for a declaration of one unit is used for another declaration of the next unit. -/
theorem C55_second_unit_false : ¬ ∀ (n : Nat) (units : List (Env × List Call)) (out : List (List Result)), (∀ u ∈ units, u.1.Wellfounded) →
    unitsF n units (fun _ => none) = some out → out = units.map fun u => u.2.map (afresh u.1) := by
  intro h
  have e := h 9 [(cyclicClasses, [.cls 0]), (nextUnit, [.cls 0])] [[.decision true], [.decision true]] (by
    intro u hu
    rcases List.mem_cons.1 hu with rfl | hu
    · exact cyclicClasses_wellfounded
    · cases List.mem_singleton.1 hu; exact nextUnit_wellfounded) (by decide +kernel)
  exact absurd e (by decide +kernel)

/-- The hypotheses of `C55_cache_transparent`, `C55_tables_right` and `C55_names_every_unit` are met: a history with repeated and nested
calls. -/
example : cyclicClasses.Wellfounded ∧
    (historyF (rawCalls cyclicClasses) 9 [.fn (methodTaking 0 c!"A" c!"f" 1), .cls 1, .standard c!"A", .fn (methodTaking 0 c!"A" c!"f" 1)]
      (fun _ => none)).map (·.1) = some [.decision true, .decision true, .name c!"A", .decision true] ∧
    unitsF 9 [(cyclicClasses, [.standard c!"_Bool"]), (nextUnit, [.standard c!"_Bool"])] (fun _ => none) =
      some [[.name c!"bool"], [.name c!"bool"]] ∧ NameCall (.standard c!"_Bool") :=
  ⟨cyclicClasses_wellfounded, by decide +kernel, by decide +kernel, True.intro⟩

/-! ## C56 -/

/-- **C56 is false**: for a name that mentions `nullptr_t`, every further normalisation adds one more `std::`. -/
theorem C56_false : ¬ ∀ (simplify : Str → Str) (s : Str), standardName simplify (standardName simplify s) = standardName simplify s := by
  intro h
  exact absurd (h id c!"const nullptr_t") (by decide +kernel)

/-- Even the standard spelling `std::nullptr_t` is not left alone: it becomes `std::std::nullptr_t`. -/
theorem C56_nullptr_false : ¬ ∀ (simplify : Str → Str), (∀ s, ¬ '<' ∈ s → simplify s = s) → standardName simplify c!"std::nullptr_t" = c!"std::nullptr_t" := by
  intro h
  exact absurd (h id fun _ _ => rfl) (by decide +kernel)

/-- **C56, part.** A normalised name in which none of the rewritten spellings occurs, and which, if it begins with `std::`, is not
simplified further, is left unchanged. Missing: the names with such spellings, see `C56_false`. -/
theorem C56_stable_partial (simplify : Str → Str) (s : Str) (hp : Plain (standardName simplify s))
    (hs : ∀ rest, standardName simplify s = c!"std::" ++ rest → simplify rest = rest) :
    standardName simplify (standardName simplify s) = standardName simplify s := by
  have hfix : fixBooleanTypes (standardName simplify s) = standardName simplify s := fixBool_fixBool _
  generalize standardName simplify s = r at *
  unfold standardName
  rw [applyNameMap_plain hp]
  by_cases hb : beginsWith r c!"std::" = true
  · obtain ⟨rest, rfl⟩ := (C58_begins_with _ _).1 hb
    simp only [hb, if_true]
    have : (c!"std::" ++ rest).drop 5 = rest := rfl
    rw [this, hs rest rfl, hfix]
  · simp only [hb, if_false, Bool.false_eq_true]
    exact hfix

/-- **C56, part.** For a name outside of `std` in which none of the rewritten spellings occurs, normalising twice is the same as
normalising once. -/
theorem C56_outside_std_partial (simplify : Str → Str) (s : Str) (hp : Plain s) (hs : ¬ c!"std::" <+: s) :
    standardName simplify (standardName simplify s) = standardName simplify s := by
  have hb : beginsWith s c!"std::" = false := by
    rw [Bool.eq_false_iff]
    intro h
    obtain ⟨rest, rfl⟩ := (C58_begins_with _ _).1 h
    exact hs (List.prefix_append _ _)
  have e : standardName simplify s = fixBooleanTypes s := by
    unfold standardName
    rw [applyNameMap_plain hp]
    simp only [hb, if_false, Bool.false_eq_true]
  refine C56_stable_partial simplify s (e ▸ plain_fixBool hp) fun rest hr => ?_
  rw [e] at hr
  exact absurd (fixBool_std s ⟨rest, hr.symm⟩) hs

/-- The hypotheses of `C56_stable_partial` and `C56_outside_std_partial` are met. -/
example : Plain (standardName id c!"class std::__1::vector<_Bool>") ∧ standardName id c!"class std::__1::vector<_Bool>" = c!"class std::vector<bool>" ∧
    Plain c!"const struct ns::Box<_Bool> &" ∧ ¬ c!"std::" <+: c!"const struct ns::Box<_Bool> &" ∧
    standardName id c!"const struct ns::Box<_Bool> &" = c!"const struct ns::Box<bool> &" := by
  have plain : ∀ s : Str, (∀ p ∈ rewritten, ∀ j, j ≤ s.length → ¬ p <+: s.drop j) → Plain s := fun s h p hp => not_infix_iff.2 (h p hp)
  exact ⟨plain _ (by decide +kernel), by decide +kernel, plain _ (by decide +kernel), by decide +kernel, by decide +kernel⟩

end Binder
