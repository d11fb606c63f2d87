import Verif.Lemmas.Includes
import Verif.Lemmas.Class
import Verif.Spec.Includes
import Verif.Props.Types

/-!
# C54, C66, C67: include files
-/

namespace Binder

open Cxx Spec

variable (E : Env)

attribute [local irreducible] includesForName

theorem tyNodes_leaf {t : Ty} {d : Node} (h : d ∈ (match t.head with | .record i => [Node.cls i] | .enum i => [.enm i] | _ => [])) : Leads t d := by
  split at h
  · rename_i i hi; cases List.mem_singleton.1 h; exact .cls hi
  · rename_i i hi; cases List.mem_singleton.1 h; exact .enm hi
  · cases h

theorem mem_tyNodes : ∀ (t : Ty) (d : Node), d ∈ tyNodes t → Leads t d
  | .const t, d, h => .const (mem_tyNodes t d (by rwa [tyNodes] at h))
  | .ptr t, d, h => .ptr (mem_tyNodes t d (by rwa [tyNodes] at h))
  | .lref t, d, h => .lref (mem_tyNodes t d (by rwa [tyNodes] at h))
  | .rref t, d, h => .rref (mem_tyNodes t d (by rwa [tyNodes] at h))
  | .basic _, d, h | .dep _, d, h | .arr _, d, h | .fn _ _, d, h | .record _, d, h | .enum _, d, h | .sugar _ _, d, h => tyNodes_leaf h

theorem head_tyNodes {d : Node} : ∀ (t : Ty), (∃ i, t.head = .record i ∧ d = .cls i) ∨ (∃ i, t.head = .enum i ∧ d = .enm i) → d ∈ tyNodes t
  | .const t, h => by rw [tyNodes]; exact head_tyNodes t h
  | .ptr _, h | .lref _, h | .rref _, h | .basic _, h | .dep _, h | .arr _, h | .fn _ _, h => by
    rcases h with ⟨i, h, _⟩ | ⟨i, h, _⟩ <;> cases h
  | .record _, h | .enum _, h => by
    rcases h with ⟨i, h, rfl⟩ | ⟨i, h, rfl⟩ <;> cases h <;> exact List.mem_cons_self
  | .sugar _ _, h => by
    rcases h with ⟨i, h, rfl⟩ | ⟨i, h, rfl⟩ <;> simp only [tyNodes, h] <;> exact List.mem_cons_self

theorem leads_tyNodes {t : Ty} {d : Node} (h : Leads t d) : d ∈ tyNodes t := by
  induction h with
  | cls h => exact head_tyNodes _ (.inl ⟨_, h, rfl⟩)
  | enm h => exact head_tyNodes _ (.inr ⟨_, h, rfl⟩)
  | const _ ih => rw [tyNodes]; exact ih
  | ptr _ ih => rw [tyNodes]; exact ih
  | lref _ ih => rw [tyNodes]; exact ih
  | rref _ ih => rw [tyNodes]; exact ih

theorem leads_iff (t : Ty) (d : Node) : d ∈ tyNodes t ↔ Leads t d := ⟨mem_tyNodes t d, leads_tyNodes⟩

theorem visit_mem_argSteps (a : TArg) (l : Nat) (d : Node) (m : Nat) : Step.visit d m ∈ argSteps E l a ↔
    m = l + 1 ∧ ((∃ t, a.kind = .type t ∧ Leads t.head d) ∨ (∃ t, a.kind = .integral t ∧ Leads t d)) := by
  unfold argSteps
  split <;> rename_i h <;> simp [h, leads_iff]
  all_goals
    constructor
    · rintro ⟨x, h1, h2, h3⟩
      subst h2
      exact ⟨h3.symm, h1⟩
    · rintro ⟨h1, h2⟩
      exact ⟨d, h2, rfl, h1.symm⟩

theorem lines_mem_argSteps (a : TArg) (l : Nat) (is : List Str) : Step.lines is ∈ argSteps E l a ↔
    (∃ k incl, a.kind = .template k incl ∧ is = includesForName E k incl) ∨
    (∃ t k incl, a.kind = .declaration t k incl ∧ is = includesForName E k incl) := by
  unfold argSteps
  split <;> rename_i h <;> simp [h]
  · exact ⟨fun e => ⟨_, _, ⟨rfl, rfl⟩, e⟩, by rintro ⟨_, _, ⟨rfl, rfl⟩, e⟩; exact e⟩
  · exact ⟨fun e => ⟨_, _, _, ⟨rfl, rfl, rfl⟩, e⟩, by rintro ⟨_, _, _, ⟨rfl, rfl, rfl⟩, e⟩; exact e⟩

theorem mem_templateMethods (C : Record) (m : Func) : m ∈ templateMethods E C ↔ ∃ specs, Member.funcTemplate specs ∈ C.members ∧ m ∈ specs ∧
    m.method.isSome = true ∧ m.access = .pub ∧ functionBindable E m = true ∧ skipFunction E m = .ok false ∧ m.isCtor = false ∧ m.isDtor = false := by
  simp only [templateMethods, List.mem_flatMap]
  constructor
  · rintro ⟨x, hx, h⟩
    split at h
    · rename_i specs
      simp only [List.mem_filter, Bool.and_eq_true, beq_iff_eq, Bool.not_eq_true', answer_false] at h
      exact ⟨specs, hx, h.1, h.2.1.1.1.1.1, h.2.1.1.1.1.2, h.2.1.1.1.2, h.2.1.1.2, h.2.1.2, h.2.2⟩
    · cases h
  · rintro ⟨specs, hx, h⟩
    refine ⟨_, hx, ?_⟩
    simp only [List.mem_filter, Bool.and_eq_true, beq_iff_eq, Bool.not_eq_true', answer_false]
    exact ⟨h.1, ⟨⟨⟨⟨h.2.1, h.2.2.1⟩, h.2.2.2.1⟩, h.2.2.2.2.1⟩, h.2.2.2.2.2.1⟩, h.2.2.2.2.2.2⟩

/-- The visits among the steps are what the depth rules ask for. -/
theorem visit_mem_steps (d : Node) (l : Nat) (d' : Node) (l' : Nat) : Step.visit d' l' ∈ nodeSteps E d l ↔ Asks E d l d' l' := by
  cases d with
  | enm i =>
    simp only [nodeSteps, enumSteps]
    constructor
    · intro h
      split at h <;> simp at h
    · rintro ⟨⟩
  | fn F =>
    simp only [nodeSteps, functionSteps, List.mem_append, List.mem_singleton, List.mem_flatMap, List.mem_map, mem_functionTypes, leads_iff]
    constructor
    · rintro (h | ⟨t, ht, x, hx, h⟩)
      · cases h
      · cases h; exact .signature ht hx
    · rintro ⟨⟩
      rename_i t ht hx
      exact .inr ⟨t, ht, d', hx, rfl⟩
  | cls i =>
    simp only [nodeSteps, classSteps, List.mem_append, List.mem_singleton, List.mem_map, mem_templateMethods]
    constructor
    · rintro (((h | h) | h) | h)
      · cases h
      · split at h
        · rename_i as has
          obtain ⟨a, ha, h⟩ := List.mem_flatMap.1 h
          obtain ⟨rfl, ⟨t, ht, hl⟩ | ⟨t, ht, hl⟩⟩ := (visit_mem_argSteps E a l d' l').1 h
          · exact .argument ⟨as, has, a, ha, ht⟩ hl
          · exact .value ⟨as, has, a, ha, ht⟩ hl
        · cases h
      · obtain ⟨m, ⟨specs, h1, h2, h3, h4, h5, h6, h7, h8⟩, h⟩ := h
        cases h
        exact .template h1 h2 h3 h4 h5 h6 h7 h8
      · split at h
        · rename_i hl
          simp only [List.mem_map, List.mem_filter, mem_methods, Bool.and_eq_true, beq_iff_eq, Bool.not_eq_true'] at h
          obtain ⟨m, ⟨h1, ⟨h2, h3⟩, h4⟩, h⟩ := h
          cases h
          exact .method hl h1 h2 h3 h4
        · cases h
    · intro h
      cases h with
      | @argument _ t _ _ h hl =>
        obtain ⟨as, has, a, ha, ht⟩ := h
        left; left; right
        rw [has]
        exact List.mem_flatMap.2 ⟨a, ha, (visit_mem_argSteps E a l d' _).2 ⟨rfl, .inl ⟨t, ht, hl⟩⟩⟩
      | @value _ t _ _ h hl =>
        obtain ⟨as, has, a, ha, ht⟩ := h
        left; left; right
        rw [has]
        exact List.mem_flatMap.2 ⟨a, ha, (visit_mem_argSteps E a l d' _).2 ⟨rfl, .inr ⟨t, ht, hl⟩⟩⟩
      | @template _ _ specs m h1 h2 h3 h4 h5 h6 h7 h8 =>
        left; right
        exact ⟨m, ⟨specs, h1, h2, h3, h4, h5, h6, h7, h8⟩, rfl⟩
      | @method _ _ m hl h1 h2 h3 h4 =>
        right
        rw [if_pos hl]
        simp only [List.mem_map, List.mem_filter, mem_methods, Bool.and_eq_true, beq_iff_eq, Bool.not_eq_true']
        exact ⟨m, ⟨h1, ⟨h2, h3⟩, h4⟩, rfl⟩

/-- The lines among the steps are what the declaration brings. -/
theorem lines_mem_steps (d : Node) (l : Nat) (x : Str) : (∃ is, Step.lines is ∈ nodeSteps E d l ∧ x ∈ is) ↔ Brings E d x := by
  cases d with
  | enm i =>
    simp only [nodeSteps, enumSteps, List.mem_append, List.mem_singleton]
    constructor
    · rintro ⟨is, h | h, hx⟩
      · cases h; exact .enm hx
      · split at h
        · rename_i incl hi
          cases List.mem_singleton.1 h
          exact .enumDefinition hi hx
        · cases h
    · intro h
      cases h with
      | enm h => exact ⟨_, .inl rfl, h⟩
      | enumDefinition hi h => exact ⟨_, .inr (by rw [hi]; exact List.mem_cons_self), h⟩
  | fn F =>
    simp only [nodeSteps, functionSteps, List.mem_append, List.mem_singleton]
    constructor
    · rintro ⟨is, h | h, hx⟩
      · cases h; exact .fn hx
      · simp at h
    · intro h
      cases h with
      | fn h => exact ⟨_, .inl rfl, h⟩
  | cls i =>
    simp only [nodeSteps, classSteps, List.mem_append, List.mem_singleton]
    constructor
    · rintro ⟨is, ((h | h) | h) | h, hx⟩
      · cases h; exact .cls hx
      · split at h
        · rename_i as has
          obtain ⟨a, ha, h⟩ := List.mem_flatMap.1 h
          obtain ⟨k, incl, hk, rfl⟩ | ⟨t, k, incl, hk, rfl⟩ := (lines_mem_argSteps E a l is).1 h
          · exact .template ⟨as, has, a, ha, hk⟩ hx
          · exact .declaration ⟨as, has, a, ha, hk⟩ hx
        · cases h
      · simp at h
      · split at h <;> simp at h
    · intro h
      cases h with
      | cls h => exact ⟨_, .inl (.inl (.inl rfl)), h⟩
      | @template _ k incl _ h hx =>
        obtain ⟨as, has, a, ha, hk⟩ := h
        refine ⟨includesForName E k incl, .inl (.inl (.inr ?_)), hx⟩
        rw [has]
        exact List.mem_flatMap.2 ⟨a, ha, (lines_mem_argSteps E a l _).2 (.inl ⟨k, incl, hk, rfl⟩)⟩
      | @declaration _ t k incl _ h hx =>
        obtain ⟨as, has, a, ha, hk⟩ := h
        refine ⟨includesForName E k incl, .inl (.inl (.inr ?_)), hx⟩
        rw [has]
        exact List.mem_flatMap.2 ⟨a, ha, (lines_mem_argSteps E a l _).2 (.inr ⟨t, k, incl, hk, rfl⟩)⟩

/-- On a lower level a declaration asks for the same and more, on lower levels. -/
theorem asks_mono {d d' : Node} {l l' k : Nat} (h : Asks E d l d' l') (hk : k ≤ l) : ∃ k', Asks E d k d' k' ∧ k' ≤ l' := by
  cases h with
  | signature h1 h2 => exact ⟨k, .signature h1 h2, hk⟩
  | argument h1 h2 => exact ⟨k + 1, .argument h1 h2, by omega⟩
  | value h1 h2 => exact ⟨k + 1, .value h1 h2, by omega⟩
  | template h1 h2 h3 h4 h5 h6 h7 h8 => exact ⟨k + 1, .template h1 h2 h3 h4 h5 h6 h7 h8, by omega⟩
  | method hl h1 h2 h3 h4 => exact ⟨k + 1, .method (by omega) h1 h2 h3 h4, by omega⟩

/-- C54: collecting the includes ends, on every graph of declarations, also a cyclic one; `U` are the declarations of the program. -/
theorem C54_terminates (U : List Node) (hU : ∀ d ∈ U, ∀ l d' l', Asks E d l d' l' → d' ∈ U) (start : List Str) (steps : List Step)
    (hs : ∀ d l, Step.visit d l ∈ steps → d ∈ U) : ∃ n r, ∀ m ≥ n, collectF E m start steps = some r := by
  have hU' : ∀ d ∈ U, ∀ l d' l', Step.visit d' l' ∈ nodeSteps E d l → d' ∈ U :=
    fun d hd l d' l' h => hU d hd l d' l' ((visit_mem_steps E d l d' l').1 h)
  have ⟨n, r, h⟩ := runSteps_total (U := U) (steps := nodeSteps E) _ _ (fun s hs => visitF_total hU' _ _ s hs) steps { includes := start }
    hs (.inr ⟨rfl, Nat.le_refl _⟩)
  exact ⟨n, r, fun m hm => runSteps_more (fun s d l r h => visitF_more _ hm h) steps _ r h⟩

/-- C54: the include lines collected for the steps (those of all objects bound into one file, in any order and number) are exactly the
lines given, and those that the declarations bring which the steps ask for, directly or indirectly. Every declaration asked for is
visited, on the lowest level on which it is asked for; no other declaration is visited. -/
theorem C54_exact (n : Nat) (start : List Str) (steps : List Step) (r : IncludeSet) (h : collectF E n start steps = some r) :
    (∀ x, x ∈ r.includes ↔ x ∈ start ∨ (∃ is, Step.lines is ∈ steps ∧ x ∈ is) ∨
      ∃ d l, Asked E (fun d l => Step.visit d l ∈ steps) d l ∧ Brings E d x) ∧
    (∀ d l, r.stack d = some l ↔ Asked E (fun d l => Step.visit d l ∈ steps) d l ∧
      ∀ l', Asked E (fun d l => Step.visit d l ∈ steps) d l' → l ≤ l') := by
  obtain ⟨w, hd⟩ := runSteps_walked (visitF_walked (nodeSteps E) n) steps _ _ h
  have closed : ∀ d l, r.stack d = some l → Done r (nodeSteps E d l) := fun d l hl => w.2 d l hl (by intro h; cases h)
  have cover : ∀ d l, Asked E (fun d l => Step.visit d l ∈ steps) d l → ∃ m, r.stack d = some m ∧ m ≤ l := by
    intro d l ha
    induction ha with
    | root hr => exact hd.1 _ _ hr
    | step _ hs ih =>
      obtain ⟨m, h1, h2⟩ := ih
      obtain ⟨k', h3, h4⟩ := asks_mono E hs h2
      obtain ⟨m', h5, h6⟩ := (closed _ _ h1).1 _ _ ((visit_mem_steps E _ _ _ _).2 h3)
      exact ⟨m', h5, Nat.le_trans h6 h4⟩
  have sound := runSteps_sound (Asked E (fun d l => Step.visit d l ∈ steps))
    (fun x => x ∈ start ∨ (∃ is, Step.lines is ∈ steps ∧ x ∈ is) ∨ ∃ d l, Asked E (fun d l => Step.visit d l ∈ steps) d l ∧ Brings E d x)
    (fun s d l s' => visitF_sound _ _ (fun d l hp d' l' hm => .step hp ((visit_mem_steps E _ _ _ _).1 hm))
      (fun d l hp is hi x hx => .inr (.inr ⟨d, l, hp, (lines_mem_steps E d l x).1 ⟨is, hi, hx⟩⟩)) n s d l s')
    steps _ r (fun d l hm => .root hm) (fun is hi x hx => .inr (.inl ⟨is, hi, hx⟩)) h (fun x m hx => by cases hx) (fun x hx => .inl hx)
  refine ⟨fun x => ⟨sound.2 x, ?_⟩, fun d l => ⟨fun hl => ⟨sound.1 d l hl, fun l' hl' => ?_⟩, ?_⟩⟩
  · rintro (hx | ⟨is, hi, hx⟩ | ⟨d, l, ha, hx⟩)
    · exact w.1.2 x hx
    · exact hd.2 is hi x hx
    · obtain ⟨m, h1, _⟩ := cover d l ha
      obtain ⟨is, hi, hx⟩ := (lines_mem_steps E d m x).2 hx
      exact (closed d m h1).2 is hi x hx
  · obtain ⟨m, h1, h2⟩ := cover d l' hl'
    rw [hl] at h1
    cases h1
    exact h2
  · rintro ⟨ha, hmin⟩
    obtain ⟨m, h1, h2⟩ := cover d l ha
    have := hmin m (sound.1 d m h1)
    rw [h1, Nat.le_antisymm h2 this]

/-! ## C66: the header of a declaration -/

/-- The text of an include line: a comment follows if includes are annotated. -/
def annotatedLine (name header : Str) : Str := if E.opts.annotateIncludes then header ++ c!" // " ++ stdName E name else header

section

attribute [local semireducible] includesForName

theorem includesForName_cases (name incl : Str) : includesForName E name incl = [] ∨ ∃ h, includesForName E name incl = [annotatedLine E name h] ∧
    ((∃ p ∈ includeTypeMap, p.2 = h) ∨ (∃ p ∈ includeNameMap, p.2 = h) ∨ (∃ p ∈ includeFileMap, p.2 = h) ∨
      (h = incl ∧ h ≠ [] ∧ ∀ p ∈ includeFileMap, p.1 ≠ h)) := by
  unfold includesForName
  simp only
  split
  · rename_i p hp
    exact .inr ⟨p.2, rfl, .inl ⟨p, List.mem_of_find?_eq_some hp, rfl⟩⟩
  split
  · rename_i p hp
    exact .inr ⟨p.2, rfl, .inr (.inl ⟨p, List.mem_of_find?_eq_some hp, rfl⟩)⟩
  cases hf : includeFileMap.find? (fun p => incl == p.1) with
  | some p =>
    simp only
    split
    · exact .inl rfl
    · exact .inr ⟨p.2, rfl, .inr (.inr (.inl ⟨p, List.mem_of_find?_eq_some hf, rfl⟩))⟩
  | none =>
    simp only
    split
    · exact .inl rfl
    · rename_i h
      refine .inr ⟨incl, rfl, .inr (.inr (.inr ⟨rfl, by simpa using h, fun p hp e => ?_⟩))⟩
      have := List.find?_eq_none.1 hf p hp
      simp [e] at this

theorem includesForName_unknown {name incl : Str} (h1 : ∀ p ∈ includeTypeMap, p.1 ≠ stdName E name)
    (h2 : ∀ p ∈ includeNameMap, ¬ p.1 <+: stdName E name) : includesForName E name incl =
      if (match includeFileMap.find? (fun p : Str × Str => incl == p.1) with | some p => p.2 | none => incl).isEmpty then []
      else [annotatedLine E name (match includeFileMap.find? (fun p : Str × Str => incl == p.1) with | some p => p.2 | none => incl)] := by
  have e1 : includeTypeMap.find? (fun p => p.1 == stdName E name) = none := by
    rw [List.find?_eq_none]
    intro p hp h
    exact h1 p hp (by simpa using h)
  have e2 : includeNameMap.find? (fun p => beginsWith (stdName E name) p.1) = none := by
    rw [List.find?_eq_none]
    intro p hp h
    exact h2 p hp ((beginsWith_iff _ _).1 h)
  unfold includesForName
  simp only [e1, e2]
  rfl

end

/-- The headers in the tables are headers of the library, in angle brackets, none of which is internal. -/
theorem table_headers : ∀ p ∈ includeTypeMap ++ includeNameMap ++ includeFileMap, p.2.head? = some '<' ∧ p.2.getLast? = some '>' ∧
    '>' ∉ p.2.dropLast ∧ ∀ q ∈ includeFileMap, q.1 ≠ p.2 := by decide +kernel

theorem takeThrough_mem {c : Char} {s : Str} (h : c ∈ s) : ∃ a, c ∉ a ∧ takeThrough c s = a ++ [c] := by
  induction s with
  | nil => cases h
  | cons x s ih =>
    by_cases hx : x = c
    · exact ⟨[], by simp, by simp [takeThrough, hx]⟩
    · obtain ⟨a, ha, e⟩ := ih (by simpa [Ne.symm hx] using h)
      exact ⟨x :: a, by simp [ha, Ne.symm hx], by simp [takeThrough, hx, e]⟩

theorem takeThrough_append {c : Char} (a rest : Str) (h : c ∉ a) : takeThrough c (a ++ c :: rest) = a ++ [c] := by
  induction a with
  | nil => simp [takeThrough]
  | cons x a ih =>
    simp only [List.mem_cons, not_or] at h
    simp [takeThrough, Ne.symm h.1, ih h.2]

theorem relevantInclude_quote (s : Str) : relevantInclude (some ('"' :: s)) = [] := by
  by_cases h : 2 < s.length + 1 <;> simp [relevantInclude, h]

theorem relevantInclude_angle (s : Str) : relevantInclude (some ('<' :: s)) = if 1 < s.length then '<' :: takeThrough '>' s else [] := by
  by_cases h : 1 < s.length
  · have : s.length + 1 > 2 := by omega
    simp [relevantInclude, h, this]
  · have : ¬ s.length + 1 > 2 := by omega
    simp [relevantInclude, h, this]

theorem relevantInclude_other (c : Char) (s : Str) (h1 : c ≠ '"') (h2 : c ≠ '<') : relevantInclude (some (c :: s)) = [] := by
  simp [relevantInclude, h1, h2]

/-- C66: a declaration gives at most one include line. -/
theorem C66_at_most_one (name incl : Str) : (includesForName E name incl).length ≤ 1 := by
  rcases includesForName_cases E name incl with h | ⟨_, h, _⟩ <;> simp [h]

/-- C66: the line names a header in angle brackets, and never an internal header of the standard library that is known (`includeFileMap`).
`source` is the text of the `#include` directive through which the declaration came, if it came through one; the compiler has accepted
it, so an opening bracket is closed. -/
theorem C66_form (name : Str) (source : Option Str) (hs : ∀ s, source = some s → s.head? = some '<' → '>' ∈ s) :
    ∀ x ∈ includesForName E name (relevantInclude source), ∃ header, x = annotatedLine E name (c!"<" ++ header ++ c!">") ∧
      '>' ∉ header ∧ ∀ p ∈ includeFileMap, p.1 ≠ c!"<" ++ header ++ c!">" := by
  intro x hx
  have fin : ∀ h : Str, h.head? = some '<' → h.getLast? = some '>' → '>' ∉ h.dropLast → (∀ q ∈ includeFileMap, q.1 ≠ h) →
      ∃ header, annotatedLine E name h = annotatedLine E name (c!"<" ++ header ++ c!">") ∧ '>' ∉ header ∧
        ∀ p ∈ includeFileMap, p.1 ≠ c!"<" ++ header ++ c!">" := by
    intro h h1 h2 h3 h4
    cases h with
    | nil => cases h1
    | cons c t =>
      simp at h1
      subst h1
      rcases List.eq_nil_or_concat t with rfl | ⟨t, c, rfl⟩
      · simp at h2
      · have : c = '>' := by simpa [List.getLast?_cons] using h2
        subst this
        refine ⟨t, by simp, ?_, by simpa using h4⟩
        rw [List.concat_eq_append] at h3
        have : ('<' :: (t ++ ['>'])).dropLast = '<' :: t := by rw [List.dropLast_cons_of_ne_nil (by simp)]; simp
        rw [this] at h3
        simp at h3
        exact h3
  rcases includesForName_cases E name (relevantInclude source) with h | ⟨h, he, hc⟩
  · rw [h] at hx; cases hx
  · rw [he, List.mem_singleton] at hx
    subst hx
    rcases hc with ⟨p, hp, rfl⟩ | ⟨p, hp, rfl⟩ | ⟨p, hp, rfl⟩ | ⟨hi, hne, hf⟩
    · have := table_headers p (by simp [hp]); exact fin _ this.1 this.2.1 this.2.2.1 this.2.2.2
    · have := table_headers p (by simp [hp]); exact fin _ this.1 this.2.1 this.2.2.1 this.2.2.2
    · have := table_headers p (by simp [hp]); exact fin _ this.1 this.2.1 this.2.2.1 this.2.2.2
    · cases source with
      | none => exact absurd hi hne
      | some s =>
        cases s with
        | nil => exact absurd hi hne
        | cons c s =>
          by_cases h1 : c = '"'
          · subst h1; rw [relevantInclude_quote] at hi; exact absurd hi hne
          by_cases h2 : c = '<'
          · subst h2
            rw [relevantInclude_angle] at hi
            have hm : '>' ∈ s := by simpa using hs _ rfl rfl
            obtain ⟨a, ha, e⟩ := takeThrough_mem hm
            split at hi
            · rw [e] at hi
              subst hi
              refine fin _ rfl ?_ ?_ hf
              · simp [List.getLast?_cons]
              · rw [List.dropLast_cons_of_ne_nil (by simp)]; simp [ha]
            · exact absurd hi hne
          · rw [relevantInclude_other c s h1 h2] at hi; exact absurd hi hne

/-- C66: a declaration that comes from `#include <header>`, whose name is in none of the tables, gives the line `<header>`, unless the
header is a known internal one: then the line is the public header for it. -/
theorem C66_own_header (name source header : Str) (hs : AngleHeader source header) (hne : header ≠ [])
    (h1 : ∀ p ∈ includeTypeMap, p.1 ≠ stdName E name) (h2 : ∀ p ∈ includeNameMap, ¬ p.1 <+: stdName E name) :
    (∀ p ∈ includeFileMap, p.1 ≠ c!"<" ++ header ++ c!">") ∧
      includesForName E name (relevantInclude (some source)) = [annotatedLine E name (c!"<" ++ header ++ c!">")] ∨
    ∃ p ∈ includeFileMap, p.1 = c!"<" ++ header ++ c!">" ∧ includesForName E name (relevantInclude (some source)) = [annotatedLine E name p.2] := by
  obtain ⟨rest, hh, rfl⟩ := hs
  have hr : relevantInclude (some (c!"<" ++ header ++ c!">" ++ rest)) = c!"<" ++ header ++ c!">" := by
    have : c!"<" ++ header ++ c!">" ++ rest = '<' :: (header ++ '>' :: rest) := by simp
    rw [this, relevantInclude_angle, takeThrough_append _ _ hh, if_pos]
    · simp
    · have := List.length_pos_iff.2 hne
      simp only [List.length_append, List.length_cons]
      omega
  rw [hr, includesForName_unknown E h1 h2]
  cases hf : includeFileMap.find? (fun p => c!"<" ++ header ++ c!">" == p.1) with
  | some p =>
    have hm := List.mem_of_find?_eq_some hf
    have he := List.find?_some hf
    refine .inr ⟨p, hm, (by simpa using he : _ = _).symm, ?_⟩
    have := (table_headers p (by simp [hm])).1
    simp only
    rw [if_neg]
    intro hn
    rw [List.isEmpty_iff.1 hn] at this
    cases this
  | none =>
    refine .inl ⟨fun p hp e => ?_, by simp⟩
    have := List.find?_eq_none.1 hf p hp
    simp [e] at this

/-- C66: a declaration that comes from a header included with quotes, or from the source file itself, and whose name is in none of the
tables, gives no line. -/
theorem C66_no_header (name : Str) (source : Option Str) (hs : ∀ s, source = some s → ∃ rest, s = '"' :: rest)
    (h1 : ∀ p ∈ includeTypeMap, p.1 ≠ stdName E name) (h2 : ∀ p ∈ includeNameMap, ¬ p.1 <+: stdName E name) :
    includesForName E name (relevantInclude source) = [] := by
  have hr : relevantInclude source = [] := by
    cases source with
    | none => rfl
    | some s => obtain ⟨rest, rfl⟩ := hs s rfl; exact relevantInclude_quote rest
  have : includeFileMap.find? (fun p => ([] : Str) == p.1) = none := by decide +kernel
  rw [hr, includesForName_unknown E h1 h2, this]
  rfl

/-- The hypotheses of `C66_own_header` and `C66_no_header` are met by `n::A` from `#include <n/a.h>`, from an internal header, and from
`#include "a.h"`; `std::vector` always gives `<vector>`. -/
example : AngleHeader c!"<n/a.h>\nint x;" c!"n/a.h" ∧ (∀ p ∈ includeTypeMap, p.1 ≠ stdName exampleEnv c!"n::A") ∧
    (∀ p ∈ includeNameMap, ¬ p.1 <+: stdName exampleEnv c!"n::A") ∧
    includesForName exampleEnv c!"n::A" (relevantInclude (some c!"<n/a.h>\nint x;")) = [c!"<n/a.h>"] ∧
    includesForName exampleEnv c!"n::A" (relevantInclude (some c!"<bits/stl_list.h>\n")) = [c!"<list>"] ∧
    includesForName exampleEnv c!"n::A" (relevantInclude (some c!"\"a.h\"\n")) = [] ∧
    includesForName exampleEnv c!"std::vector" (relevantInclude (some c!"<bits/stl_vector.h>\n")) = [c!"<vector>"] :=
  ⟨⟨c!"\nint x;", by decide, by decide⟩, by decide +kernel, by decide +kernel, by decide +kernel, by decide +kernel, by decide +kernel,
   by decide +kernel⟩

/-! ## C67: the headers of all types of a bound signature -/

theorem classBinderSteps_inner (hw : E.Wellfounded) {i j : Nat} (h : InnerOf E i j) (pre : List Func) : ∀ n, E.nestRank i < n →
    Step.visit (.cls j) 0 ∈ classBinderStepsF E pre n i := by
  induction h generalizing pre with
  | refl =>
    intro n hn
    cases n with
    | zero => omega
    | succ n => simp [classBinderStepsF]
  | @inner i k j hk hd _ ih =>
    intro n hn
    cases n with
    | zero => omega
    | succ n =>
      have hr := hw.nested i k hk
      have he : E.nestedDefinition k = k := by simp [Env.nestedDefinition, hd]
      rw [he] at hr
      have := ih [] n (by omega)
      simp only [classBinderStepsF, List.mem_append, List.mem_flatMap]
      exact .inl (.inl (.inr ⟨k, hk, this⟩))

theorem boundMember_bindable (hw : E.Wellfounded) {j : Nat} {f : Func} (h : BoundMember E j f) :
    functionBindable E f = true ∧ f.isDtor = false ∧ (f.isCtor = true ∨ skipFunction E f = .ok false) := by
  rcases h with h | ⟨x, hx, h⟩
  · have := (C48_methods E hw j f).1 h
    exact ⟨this.2.1, this.2.2.2.2.1, .inr this.2.2.1⟩
  · have key : ∀ t : Func, t.isCtor = true → t.isDtor = false := by
      intro t ht
      unfold Func.isCtor at ht
      unfold Func.isDtor
      split at ht
      · rename_i hm; rw [hm]
      · cases ht
    have inj : ∀ t : Func, x = ctorItem t → t = f := by
      intro t e
      rw [e] at h
      unfold ctorItem at h
      split at h
      · rcases h with h | h | h <;> cases h; rfl
      · split at h <;> rcases h with h | h | h <;> cases h <;> rfl
    rcases ((C48_constructors_partial E j x).1 hx).2.2 with ⟨e, _⟩ | ⟨t, e, hc, _, _, _, hb, _⟩ | ⟨t, e, hc, _, _, hb⟩
    · rw [e] at h; rcases h with h | h | h <;> cases h
    · cases inj t e; exact ⟨hb, key _ hc, .inl hc⟩
    · cases inj t e; exact ⟨hb, key _ hc, .inl hc⟩

/-- C67, for free functions: the file with the binding of a function includes the header of the function and that of every class and
enumeration its signature leads to. `steps` are the steps for all objects bound into the file. -/
theorem C67_functions (F : Func) (steps : List Step) (hs : ∀ s ∈ functionBinderSteps F, s ∈ steps) (n : Nat) (start : List Str) (r : IncludeSet)
    (h : collectF E n start steps = some r) (d : Node) (hd : d = .fn F ∨ ∃ t, UsesType F t ∧ Leads t d) (x : Str) (hx : Brings E d x) :
    x ∈ r.includes := by
  rw [(C54_exact E n start steps r h).1]
  have ha : Asked E (fun d l => Step.visit d l ∈ steps) (.fn F) 0 := .root (hs _ (by simp [functionBinderSteps]))
  rcases hd with rfl | ⟨t, ht, hl⟩
  · exact .inr (.inr ⟨_, _, ha, hx⟩)
  · exact .inr (.inr ⟨_, _, .step ha (.signature ht hl), hx⟩)

/-- C67, for classes, the part that holds: the file with the binding of a class includes the header of the class, and that of every class
and enumeration in the signature of every bound member function or constructor that the class itself declares, or makes from its member templates. The same holds for the
classes nested in it. Missing: members that come from template bases or `using` declarations (`C67_inherited_false`), and nested
classes that are defined outside their class (`C67_nested_false`). -/
theorem C67_classes_partial (hw : E.Wellfounded) (i j : Nat) (hj : InnerOf E i j) (pre : List Func) (steps : List Step)
    (hs : ∀ s ∈ classBinderSteps E i pre, s ∈ steps) (n : Nat) (start : List Str) (r : IncludeSet) (h : collectF E n start steps = some r)
    (d : Node) (hd : d = .cls j ∨ ∃ f, BoundMember E j f ∧ PublicMethod (E.cls j) f ∧
      (f.isCtor = true → Member.method f ∈ (E.cls j).members) ∧ (d = .fn f ∨ ∃ t, UsesType f t ∧ Leads t d))
    (x : Str) (hx : Brings E d x) : x ∈ r.includes := by
  rw [(C54_exact E n start steps r h).1]
  have ha : Asked E (fun d l => Step.visit d l ∈ steps) (.cls j) 0 :=
    .root (hs _ (classBinderSteps_inner E hw hj pre _ (Nat.lt_succ_self _)))
  rcases hd with rfl | ⟨f, hb, hp, hc, hd⟩
  · exact .inr (.inr ⟨_, _, ha, hx⟩)
  · have hfd := boundMember_bindable E hw hb
    have hf : Asked E (fun d l => Step.visit d l ∈ steps) (.fn f) 1 := by
      obtain ⟨hpub, hm | ⟨specs, hm, hf⟩⟩ := hp
      · exact .step ha (.method (by decide) hm hpub hfd.1 hfd.2.1)
      · rcases hfd.2.2 with hct | hsk
        · exact .step ha (.method (by decide) (hc hct) hpub hfd.1 hfd.2.1)
        · cases hct : f.isCtor with
          | true => exact .step ha (.method (by decide) (hc hct) hpub hfd.1 hfd.2.1)
          | false =>
            have hmi : f.method.isSome = true := by
              cases hm : f.method with
              | none => simp [Func.access, hm] at hpub
              | some _ => rfl
            exact .step ha (.template hm hf hmi hpub hfd.1 hsk hct hfd.2.1)
    rcases hd with rfl | ⟨t, ht, hl⟩
    · exact .inr (.inr ⟨_, _, hf, hx⟩)
    · exact .inr (.inr ⟨_, _, .step hf (.signature ht hl), hx⟩)

/-- A member function with one parameter of type `T &`, where `T` is class `j`. -/
def methodTaking (parent : Nat) (cls name : Str) (j : Nat) : Func :=
  { simpleMethod parent cls name .pub with params := [⟨c!"x", .lref (.record j), false⟩] }

/-- `template<class X> struct D : B {};` with `struct B { int h(T &); };`, instantiated as `D<int>`; `T` comes from `<t.h>`. -/
def baseMember : Env :=
  { exampleEnv with
    cls := fun i =>
      if i = 0 then { exampleRecord with name := c!"D", qname := c!"D", targs := some [⟨c!"int", .integral (.basic 0)⟩], bases := [publicBase 1] }
      else if i = 1 then { exampleRecord with name := c!"B", qname := c!"B", members := [.method (methodTaking 1 c!"B" c!"h" 2)] }
      else { exampleRecord with name := c!"T", qname := c!"T", incl := c!"<t.h>" }
    baseRank := fun i => if i = 0 then 1 else 0 }

/-- C67 fails for members of template bases: `B::h` is bound as a member of `D<int>`, but the header of the type of its parameter is not
included. -/
theorem C67_inherited_false : ∃ f, Item.method f none false ∈ classItems baseMember 0 ∧ UsesType f (.lref (.record 2)) ∧
    Brings baseMember (.cls 2) c!"<t.h>" ∧ ∃ n r, collectF baseMember n [] (classBinderSteps baseMember 0 []) = some r ∧ c!"<t.h>" ∉ r.includes := by
  refine ⟨methodTaking 1 c!"B" c!"h" 2, by decide +kernel, .inr (.inl ⟨_, List.mem_cons_self, rfl⟩), .cls ?_, 5, ?_⟩
  · decide +kernel
  · have : (collectF baseMember 5 [] (classBinderSteps baseMember 0 [])).map (·.includes) = some [c!"<a.h>", c!"<sstream> // __str__"] := by decide +kernel
    cases hc : collectF baseMember 5 [] (classBinderSteps baseMember 0 []) with
    | none => rw [hc] at this; cases this
    | some r =>
      rw [hc] at this
      refine ⟨r, rfl, ?_⟩
      have e : r.includes = [c!"<a.h>", c!"<sstream> // __str__"] := by simpa using this
      rw [e]
      decide

/-- `struct A { struct N; };` in `<a.h>`, and `struct A::N { int f(T &); };` in `<n.h>`; `T` comes from `<t.h>`. -/
def outsideNested : Env :=
  { exampleEnv with
    cls := fun i =>
      if i = 0 then { exampleRecord with members := [.nested 1] }
      else if i = 1 then { exampleRecord with
        name := c!"N", qname := c!"A::N", access := .pub, outer := some 0, isThisDefinition := false, definition := some 2, isComplete := true }
      else if i = 2 then { exampleRecord with
        name := c!"N", qname := c!"A::N", access := .pub, outer := some 0, isFirstDecl := false, incl := c!"<n.h>"
        members := [.method (methodTaking 2 c!"A::N" c!"f" 3)] }
      else { exampleRecord with name := c!"T", qname := c!"T", incl := c!"<t.h>" }
    nestRank := fun i => if i = 0 then 1 else 0 }

/-- C67 fails for nested classes that are defined outside their class: `A::N` is bound from its definition, with `f(T &)`, but the
includes are those of its first declaration: neither the header with the definition nor that of `T` is included. -/
theorem C67_nested_false : 2 ∈ nestedBound outsideNested (outsideNested.cls 0) ∧
    Item.method (methodTaking 2 c!"A::N" c!"f" 3) none false ∈ classItems outsideNested 2 ∧
    Brings outsideNested (.cls 2) c!"<n.h>" ∧ Brings outsideNested (.cls 3) c!"<t.h>" ∧
    ∃ n r, collectF outsideNested n [] (classBinderSteps outsideNested 0 []) = some r ∧ c!"<n.h>" ∉ r.includes ∧ c!"<t.h>" ∉ r.includes := by
  refine ⟨by decide +kernel, by decide +kernel, .cls (by decide +kernel), .cls (by decide +kernel), 5, ?_⟩
  have : (collectF outsideNested 5 [] (classBinderSteps outsideNested 0 [])).map (·.includes) =
    some [c!"<a.h>", c!"<sstream> // __str__", c!"<a.h>", c!"<sstream> // __str__"] := by decide +kernel
  cases hc : collectF outsideNested 5 [] (classBinderSteps outsideNested 0 []) with
  | none => rw [hc] at this; cases this
  | some r =>
    rw [hc] at this
    have e : r.includes = [c!"<a.h>", c!"<sstream> // __str__", c!"<a.h>", c!"<sstream> // __str__"] := by simpa using this
    refine ⟨r, rfl, ?_, ?_⟩ <;> rw [e] <;> decide

/-- `struct A { int f(B &); };` in `<a.h>` and `struct B { int g(A &); };` in `<b.h>`. -/
def cyclicClasses : Env :=
  { exampleEnv with
    cls := fun i =>
      if i = 0 then { exampleRecord with members := [.method (methodTaking 0 c!"A" c!"f" 1)] }
      else { exampleRecord with name := c!"B", qname := c!"B", incl := c!"<b.h>", members := [.method (methodTaking 1 c!"B" c!"g" 0)] } }

theorem cyclicClasses_wellfounded : cyclicClasses.Wellfounded := by
  refine ⟨fun i b hb => ?_, fun i t ht => ?_, fun i j hj => ?_⟩
  · by_cases h : i = 0 <;> simp [cyclicClasses, h, exampleRecord] at hb
  · by_cases h : i = 0 <;> simp [cyclicClasses, h, exampleRecord, Record.typeArgs, Record.functionArgTypes] at ht
  · by_cases h : i = 0 <;> simp [cyclicClasses, h, exampleRecord, Env.nestedClasses] at hj

/-- The hypotheses of `C54_terminates`, `C54_exact` and `C67_classes_partial` are met in `cyclicClasses`: the walk comes back to `A`, and
stops; both headers are included. -/
example : let steps := classBinderSteps cyclicClasses 0 []
    let U := [Node.cls 0, .cls 1, .fn (methodTaking 0 c!"A" c!"f" 1), .fn (methodTaking 1 c!"B" c!"g" 0)]
    (∀ d ∈ U, ∀ l d' l', Asks cyclicClasses d l d' l' → d' ∈ U) ∧ (∀ d l, Step.visit d l ∈ steps → d ∈ U) ∧
    Asks cyclicClasses (.fn (methodTaking 1 c!"B" c!"g" 0)) 2 (.cls 0) 2 ∧
    (collectF cyclicClasses 9 [] steps).map (·.includes) =
      some [c!"<a.h>", c!"<a.h>", c!"<b.h>", c!"<a.h>", c!"<sstream> // __str__"] ∧
    InnerOf cyclicClasses 0 0 ∧ BoundMember cyclicClasses 0 (methodTaking 0 c!"A" c!"f" 1) ∧
    PublicMethod (cyclicClasses.cls 0) (methodTaking 0 c!"A" c!"f" 1) := by
  refine ⟨?_, ?_, .signature (.inr (.inl ⟨_, List.mem_cons_self, rfl⟩)) (.lref (.cls rfl)), by decide +kernel, .refl,
    .inl ⟨none, false, by decide +kernel⟩, rfl, .inl List.mem_cons_self⟩
  · intro d hd l d' l' h
    simp only [List.mem_cons, List.not_mem_nil, or_false] at hd
    rcases hd with rfl | rfl | rfl | rfl
    · cases h with
      | argument h _ => obtain ⟨as, ha, _⟩ := h; cases ha
      | value h _ => obtain ⟨as, ha, _⟩ := h; cases ha
      | template h => simp [cyclicClasses] at h
      | method _ h => simp [cyclicClasses] at h; subst h; simp
    · cases h with
      | argument h _ => obtain ⟨as, ha, _⟩ := h; cases ha
      | value h _ => obtain ⟨as, ha, _⟩ := h; cases ha
      | template h => simp [cyclicClasses] at h
      | method _ h => simp [cyclicClasses] at h; subst h; simp
    all_goals
      rw [← visit_mem_steps] at h
      simp [nodeSteps, functionSteps, functionTypes, methodTaking, simpleMethod, exampleMethod, tyNodes, Ty.head] at h
      simp [h.1]
  · intro d l h
    simp [classBinderSteps, classBinderStepsF, cyclicClasses, Env.nestedClasses] at h
    simp [h]

end Binder
