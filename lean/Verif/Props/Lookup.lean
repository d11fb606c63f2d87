import Verif.Spec.Lookup
import Verif.Lemmas.SearchOrder
import Verif.Props.ConstructRun

/-!
# C96: Python finds the members that C++ finds
-/

namespace Binder

open Cxx Spec

/-- C96. The order in which Python searches the classes of an object for a name: it goes through the class and all classes it derives from
as far as Python knows, each once, and never comes to a class before one that is derived from it. -/
theorem C96_order (U : TransUnit) (o : Opts) (fs fs' : FS) (srcs : List Source) (hg : Generated U o fs fs' srcs) (pairs : List (Str × Str)) (p : Py)
    (h : importModule pairs (importOps U.E srcs) = some p) (q : Str) :
    (∀ r, r ∈ p.order q ↔ Derives U (ListedBase U.E) q r) ∧
    (p.order q).Pairwise fun a b => a ≠ b ∧ ¬ Derives U (ListedBase U.E) b a := by
  have hs := C84_subclass U o fs fs' srcs hg pairs p h
  unfold Py.isSubclass at hs
  refine ⟨fun r => hs q r, ((ordered_import h).before q).imp ?_⟩
  intro a b hn
  refine ⟨?_, fun hd => hn ((hs b a).2 hd)⟩
  rintro rfl
  exact hn ((ordered_import h).self a)

/-- Search and result. -/
theorem find_owner (p : Py) (q n : Str) : p.find (.type q) n = (p.owner q n).bind fun t => p.own (.type t) n := by
  show (p.order q).findSome? (fun t => p.own (.type t) n) = ((p.order q).find? fun t => (p.own (.type t) n).isSome).bind _
  induction p.order q with
  | nil => rfl
  | cons a l ih =>
    rw [List.findSome?_cons, List.find?_cons]
    cases e : p.own (.type a) n with
    | none => simpa using ih
    | some k => simp [e]

/-- C96. A name that several classes of an object have is found in the one that derives from all the others. -/
theorem C96_hides (U : TransUnit) (o : Opts) (fs fs' : FS) (srcs : List Source) (hg : Generated U o fs fs' srcs) (pairs : List (Str × Str)) (p : Py)
    (h : importModule pairs (importOps U.E srcs) = some p) (q t n : Str) (hd : Derives U (ListedBase U.E) q t) (hn : (p.own (.type t) n).isSome = true)
    (hall : ∀ r, Derives U (ListedBase U.E) q r → (p.own (.type r) n).isSome = true → Derives U (ListedBase U.E) t r) :
    p.owner q n = some t ∧ p.find (.type q) n = p.own (.type t) n := by
  obtain ⟨hs, hp⟩ := C96_order U o fs fs' srcs hg pairs p h q
  have ht := (hs t).2 hd
  have hown : p.owner q n = some t := by
    unfold Py.owner
    rw [List.find?_eq_some_iff_append]
    obtain ⟨a, b, e⟩ := List.append_of_mem ht
    refine ⟨hn, a, b, e, fun r hr => ?_⟩
    cases hr' : (p.own (.type r) n).isSome with
    | false => rfl
    | true =>
      exfalso
      have hq := hall r ((hs r).1 (by rw [e]; simp [hr])) hr'
      rw [e, List.pairwise_append] at hp
      exact (hp.2.2 r hr t (by simp)).2 hq
  refine ⟨hown, ?_⟩
  rw [find_owner, hown]; rfl

/-- Two classes with a Python class have different names. -/
theorem hasClass_unique {U : TransUnit} {o : Opts} {fs fs' : FS} {srcs : List Source} (hg : Generated U o fs fs' srcs) {pairs : List (Str × Str)} {p : Py}
    (h : importModule pairs (importOps U.E srcs) = some p) {i j : Nat} (hi : HasClass U i) (hj : HasClass U j)
    (e : classQualifiedName U.E (U.E.cls i) = classQualifiedName U.E (U.E.cls j)) : i = j := by
  have hnd := (C81_needed pairs _ p h).2.2.1
  have hin : ∀ {i}, HasClass U i → i ∈ (srcs.flatMap Source.bound).flatMap (registers U.E) := by
    rintro i ⟨⟨v, hv, hns, hreg⟩, _⟩
    exact List.mem_flatMap.2 ⟨v, (hg.exactly v).2 ⟨hv, hns⟩, hreg⟩
  rw [importOps_eq] at hnd
  have hnd' := hnd.sublist (registered_types U.E _)
  rw [bound_stmts] at hnd'
  have key : ∀ {l : List Nat} {a b : Nat}, (l.map fun j => classQualifiedName U.E (U.E.cls j)).Nodup → a ∈ l → b ∈ l →
      classQualifiedName U.E (U.E.cls a) = classQualifiedName U.E (U.E.cls b) → a = b := by
    intro l
    induction l with
    | nil => intro a b _ ha; cases ha
    | cons x l ih =>
      intro a b hn ha hb e
      rw [List.map_cons, List.nodup_cons] at hn
      rcases List.mem_cons.1 ha with ha | ha <;> rcases List.mem_cons.1 hb with hb | hb
      · rw [ha, hb]
      · exact absurd (by rw [← ha, e]; exact List.mem_map_of_mem hb) hn.1
      · exact absurd (by rw [← hb, ← e]; exact List.mem_map_of_mem ha) hn.1
      · exact ih hn.2 ha hb e
  exact key hnd' (hin hi) (hin hj) e

theorem inherits_trans {E : Env} {ok : Base → Prop} {i j k : Nat} (h1 : Inherits E ok i j) (h2 : Inherits E ok j k) : Inherits E ok i k := by
  induction h1 with
  | refl => exact h2
  | step hb hok hr _ ih => exact .step hb hok hr (ih h2)

/-- C96, the part that holds. If Python knows the class of an object and all its bases, then it finds each name in the class in which C++ finds
it. -/
theorem C96_lookup_partial (U : TransUnit) (o : Opts) (fs fs' : FS) (srcs : List Source) (hg : Generated U o fs fs' srcs) (pairs : List (Str × Str)) (p : Py)
    (h : importModule pairs (importOps U.E srcs) = some p) (i k : Nat) (n : Str) (hwhole : WholeHierarchy U (ListedBase U.E) i)
    (hk : Finds U.E (HasMember U n) i k) :
    p.owner (classQualifiedName U.E (U.E.cls i)) n = some (classQualifiedName U.E (U.E.cls k)) ∧
    p.find (.type (classQualifiedName U.E (U.E.cls i))) n = p.own (.type (classQualifiedName U.E (U.E.cls k))) n := by
  obtain ⟨hik, hhas, hall⟩ := hk
  -- C++ inheritance gives Python inheritance
  have up : ∀ {a b}, Inherits U.E anyBase a b → Inherits U.E anyBase i a →
      Derives U (ListedBase U.E) (classQualifiedName U.E (U.E.cls a)) (classQualifiedName U.E (U.E.cls b)) := by
    intro a b hab
    induction hab with
    | refl => intro _; exact .refl _
    | @step a j b x hx hok hr _ ih =>
      intro ha
      exact .step (hwhole a ha).1 ((hwhole a ha).2 x hx j hr) (ih (inherits_trans ha (.step hx hok hr .refl)))
  -- and the other way round
  have down : ∀ q r, Derives U (ListedBase U.E) q r → ∀ a, q = classQualifiedName U.E (U.E.cls a) → Inherits U.E anyBase i a →
      ∃ b, r = classQualifiedName U.E (U.E.cls b) ∧ Inherits U.E anyBase i b := by
    intro q r hd
    induction hd with
    | refl q => intro a e ha; exact ⟨a, e, ha⟩
    | @step c j r hc hl _ ih =>
      intro a e ha
      obtain rfl := hasClass_unique hg h hc (hwhole a ha).1 e
      obtain ⟨x, hx, _, hr⟩ := hl.1
      exact ih j rfl (inherits_trans ha (.step hx trivial hr .refl))
  refine C96_hides U o fs fs' srcs hg pairs p h _ _ n (up hik .refl) ?_ ?_
  · obtain ⟨op, kind, h1, h2⟩ := hhas
    exact (C84_names U o fs fs' srcs hg pairs p h _ n).1.2 (.inl ⟨op, kind, h1, h2⟩)
  · intro r hr hs
    obtain ⟨b, rfl, hb⟩ := down _ _ hr i rfl .refl
    rcases (C84_names U o fs fs' srcs hg pairs p h _ n).1.1 hs with ⟨op, kind, h1, h2⟩ | ⟨x, _, e, _⟩
    · exact up (hall b hb ⟨op, kind, h1, h2⟩) hik
    · cases e

/-! ## Examples -/

/-- `int g()` of the class with the number and the name. -/
def Ex.getter (i : Nat) (cls : Str) : Func :=
  { exampleMethod c!"g" false (.basic 0) [] with
    qname := cls ++ c!"::g"
    method := some { parent := i, access := .pub, kind := .ordinary, isStatic := false, isConst := false, isVirtual := false,
                     isPure := false, isFinal := false, isCopyAssign := false, exceptionSpec := 0 } }

/-- The names of four classes. -/
def Ex.fourNames : Ty → Str
  | .record 0 => c!"struct A"
  | .record 1 => c!"struct B"
  | .record 2 => c!"struct C"
  | .record 3 => c!"struct D"
  | .basic _ => c!"int"
  | _ => c!"other"

/-- `struct A { int g(); }; struct B : virtual A { int g(); }; struct C : virtual A {}; struct D : C, B {};` with `+namespace` for all, and
`-class` for some. -/
def Ex.fourClasses (skip : List Str) : TransUnit :=
  { env := withClasses { exampleEnv with tyName := Ex.fourNames, cfg := { namespacesToBind := [c!""], classesToSkip := skip }, baseRank := _root_.id }
      [{ exampleRecord with members := [.method (Ex.getter 0 c!"A")] },
       { exampleRecord with name := c!"B", qname := c!"B", bases := [⟨.pub, true, some 0⟩], members := [.method (Ex.getter 1 c!"B")] },
       { exampleRecord with name := c!"C", qname := c!"C", bases := [⟨.pub, true, some 0⟩] },
       { exampleRecord with name := c!"D", qname := c!"D", bases := [⟨.pub, false, some 2⟩, ⟨.pub, false, some 1⟩] }]
    visits := [.cls 0, .cls 1, .cls 2, .cls 3], inSystem := fun _ => false, depth := 20 }

/-- All four classes are bound. -/
def Ex.dominant : TransUnit := Ex.fourClasses []

theorem Ex.dominant_listed {i j : Nat} (h : ListedBase Ex.dominant.E i j) : i = 1 ∧ j = 0 ∨ i = 2 ∧ j = 0 ∨ i = 3 ∧ j = 2 ∨ i = 3 ∧ j = 1 := by
  have h' := (mem_boundBases _ _ _).2 h
  match i with
  | 0 => rw [show boundBases Ex.dominant.E (Ex.dominant.E.cls 0) = [] by decide +kernel] at h'; cases h'
  | 1 =>
    rw [show boundBases Ex.dominant.E (Ex.dominant.E.cls 1) = [0] by decide +kernel] at h'
    simp only [List.mem_cons, List.not_mem_nil, or_false] at h'
    omega
  | 2 =>
    rw [show boundBases Ex.dominant.E (Ex.dominant.E.cls 2) = [0] by decide +kernel] at h'
    simp only [List.mem_cons, List.not_mem_nil, or_false] at h'
    omega
  | 3 =>
    rw [show boundBases Ex.dominant.E (Ex.dominant.E.cls 3) = [2, 1] by decide +kernel] at h'
    simp only [List.mem_cons, List.not_mem_nil, or_false] at h'
    omega
  | n + 4 => rw [show boundBases Ex.dominant.E (Ex.dominant.E.cls (n + 4)) = [] from rfl] at h'; cases h'

theorem Ex.dominant_nested (i : Nat) : nestedBound Ex.dominant.E (Ex.dominant.E.cls i) = [] := by
  match i with
  | 0 | 1 | 2 | 3 => rfl
  | n + 4 => rfl

theorem Ex.dominant_imports : ∃ o fs' srcs pairs p, Ex.dominant.Ends o Ex.fsEmpty (.done fs') ∧ Generated Ex.dominant o Ex.fsEmpty fs' srcs ∧
    importModule pairs (importOps Ex.dominant.E srcs) = some p := by
  obtain ⟨fs', h, _⟩ : ∃ fs', Ex.dominant.Ends { Ex.opts 1000 with single := true } Ex.fsEmpty (.done fs') ∧ (fun _ => true) fs' = true :=
    Ex.ends_after (n := 20) (by decide +kernel)
  have hreg : ∀ i a j b k, registers Ex.dominant.E (.cls i) = a ++ j :: b → j ≠ i → ListedBase Ex.dominant.E j k → k ∈ a := by
    intro i a j b k h hj _
    have hm : j ∈ registers Ex.dominant.E (.cls i) := by rw [h]; simp
    rcases registersF_cases hm with rfl | ⟨k', hk⟩
    · exact absurd rfl hj
    · rw [Ex.dominant_nested] at hk; cases hk
  have hvis : ∀ v, Reached Ex.dominant v → v ∈ Ex.dominant.visits := fun v hv => (considered_offered hv.considered).1
  have hns : ∀ v ∈ Ex.dominant.visits, namespaceOf Ex.dominant.E v = [] := by decide +kernel
  have hl : ∀ {i j}, ListedBase Ex.dominant.E i j → j < 4 ∧ i < 4 := by
    intro i j h
    have := Ex.dominant_listed h
    omega
  have hplain : BasesPlain Ex.dominant := by
    constructor
    · intro i j k h hk
      have hj := (hl h).1
      have key : ∀ j < 4, ∀ k < 4, classQualifiedName Ex.dominant.E (Ex.dominant.E.cls k) = classQualifiedName Ex.dominant.E (Ex.dominant.E.cls j) ∨
          typeNameOfRecord Ex.dominant.E k = typeNameOfRecord Ex.dominant.E j → k = j := by decide +kernel
      refine key j hj k ?_
      have := (considered_offered hk).1
      simp only [Ex.dominant, Ex.fourClasses, List.mem_cons, Visit.cls.injEq, List.not_mem_nil, or_false] at this
      omega
    · intro i j k h
      have hj := (hl h).1
      have : typeNameOfEnum Ex.dominant.E k = typeNameOfEnum Ex.dominant.E 0 := by
        unfold typeNameOfEnum stdTy
        have h1 : Ex.dominant.E.tyName (.enum k) = Ex.dominant.E.tyName (.enum 0) := rfl
        have h2 : Ex.dominant.E.tyName (Ty.enum k).canon = Ex.dominant.E.tyName (Ty.enum 0).canon := rfl
        rw [h1, h2]
      rw [this]
      have key : ∀ j < 4, typeNameOfEnum Ex.dominant.E 0 ≠ typeNameOfRecord Ex.dominant.E j := by decide +kernel
      exact key j hj
    · intro i j h
      rcases Ex.dominant_listed h with ⟨rfl, rfl⟩ | ⟨rfl, rfl⟩ | ⟨rfl, rfl⟩ | ⟨rfl, rfl⟩ <;> exact ⟨rfl, .inl rfl⟩
    · intro i j h; rcases Ex.dominant_listed h with ⟨rfl, rfl⟩ | ⟨rfl, rfl⟩ | ⟨rfl, rfl⟩ | ⟨rfl, rfl⟩ <;> decide +kernel
    · intro i j _; rfl
  have hanon : ∀ i, (Ex.dominant.E.cls i).isAnonymous = false := by
    intro i
    match i with
    | 0 | 1 | 2 | 3 => rfl
    | n + 4 => rfl
  have hcomp : Compatible (fun op => ∃ v, Reached Ex.dominant v ∧ op ∈ opsOf Ex.dominant.E v) (HasModule Ex.dominant) (fun q => if q = c!"B" then [c!"B", c!"A"] else if q = c!"C" then [c!"C", c!"A"] else if q = c!"D" then [c!"D", c!"C", c!"B", c!"A"] else [q]) := by
    refine compatible_of_list (ops := Ex.dominant.visits.flatMap (opsOf Ex.dominant.E)) (pairs := [c!""].map fun n => ([], n)) ?_ ?_ (by decide +kernel)
    · rintro op ⟨v, hv, hop⟩
      exact List.mem_flatMap.2 ⟨v, hvis v hv, hop⟩
    · intro x hx
      exact hasModule_single (fun v hv => by rw [hns v (hvis v hv)]; simp) (by decide) hx
  have hone : OneDefinition Ex.dominant := by
    constructor
    · intro v hv
      have : ∀ v ∈ Ex.dominant.visits, ((opsOf Ex.dominant.E v).filterMap Op.type?).Nodup := by decide +kernel
      exact this v (hvis v hv)
    · intro v w q hv hw
      have : ∀ v ∈ Ex.dominant.visits, ∀ w ∈ Ex.dominant.visits, ∀ q ∈ (opsOf Ex.dominant.E v).filterMap Op.type?,
          q ∈ (opsOf Ex.dominant.E w).filterMap Op.type? → v = w := by decide +kernel
      exact this v (hvis v hv) w (hvis w hw) q
  obtain ⟨srcs, pairs, root, hg, _, _, p, hp⟩ := C81_import_partial Ex.dominant _ Ex.fsEmpty fs' Ex.fsEmpty_wf (by decide) (.inl rfl)
    (wellfounded_of_ranked (by decide)) h hplain hreg hone
    ⟨fun i j hj => (by rw [Ex.dominant_nested] at hj; cases hj), fun i j hj => (by rw [Ex.dominant_nested] at hj; cases hj)⟩
    (fun i _ => hanon i) (fun v hv h => by rw [hns v (hvis v hv)] at h; revert h; decide) _ hcomp
  exact ⟨_, fs', srcs, pairs, p, h, hg, hp⟩

theorem Ex.dominant_hasClass : ∀ i, i = 0 ∨ i = 1 ∨ i = 2 ∨ i = 3 → HasClass Ex.dominant i := by
  intro i hi
  have hr : Reached Ex.dominant (.cls i) := by
    rcases hi with rfl | rfl | rfl | rfl
    all_goals
      refine Ex.asked (by decide +kernel) True.intro (by decide +kernel) ?_ rfl (by decide +kernel)
      unfold Converted; decide +kernel
  refine ⟨⟨.cls i, hr, rfl, ?_⟩, rfl⟩
  rcases hi with rfl | rfl | rfl | rfl <;> decide +kernel

theorem Ex.four_inherits {skip : List Str} {i j : Nat} (h : Inherits (Ex.fourClasses skip).E anyBase i j) (hi : i < 4) : j < 4 := by
  induction h with
  | refl => exact hi
  | @step i j k b hb _ hr _ ih =>
    apply ih
    match i, hi with
    | 0, _ => cases hb
    | 1, _ => rcases List.mem_singleton.1 hb with rfl; cases hr; decide
    | 2, _ => rcases List.mem_singleton.1 hb with rfl; cases hr; decide
    | 3, _ =>
      simp only [Ex.fourClasses, TransUnit.E, withClasses] at hb
      rcases List.mem_cons.1 hb with rfl | hb
      · cases hr; decide
      · rcases List.mem_singleton.1 hb with rfl; cases hr; decide


theorem Ex.four_db (skip : List Str) : Inherits (Ex.fourClasses skip).E anyBase 3 1 :=
  .step (b := ⟨.pub, false, some 1⟩) (.tail _ (.head _)) trivial rfl .refl

theorem Ex.four_ba (skip : List Str) : Inherits (Ex.fourClasses skip).E anyBase 1 0 :=
  .step (b := ⟨.pub, true, some 0⟩) (.head _) trivial rfl .refl

/-- A case of `C96_lookup_partial`: for a `D`, both C++ and Python find `g` in `B`, although Python comes to `C` first and finds `A` from there. -/
example : ∃ o fs' srcs pairs p, Ex.dominant.Ends o Ex.fsEmpty (.done fs') ∧ Generated Ex.dominant o Ex.fsEmpty fs' srcs ∧
    importModule pairs (importOps Ex.dominant.E srcs) = some p ∧ p.owner c!"D" c!"g" = some c!"B" := by
  obtain ⟨o, fs', srcs, pairs, p, h1, h2, h3⟩ := Ex.dominant_imports
  refine ⟨o, fs', srcs, pairs, p, h1, h2, h3, ?_⟩
  have hc := Ex.dominant_hasClass
  have hmem : ∀ i, i = 0 ∨ i = 1 → HasMember Ex.dominant c!"g" i := by
    intro i hi
    obtain ⟨⟨v, hv, hb, _⟩, _⟩ := hc i (by omega)
    have hr : Reached Ex.dominant (.cls i) := by
      rcases hi with rfl | rfl
      all_goals
        refine Ex.asked (by decide +kernel) True.intro (by decide +kernel) ?_ rfl (by decide +kernel)
        unfold Converted; decide +kernel
    refine ⟨.function (.type (classQualifiedName Ex.dominant.E (Ex.dominant.E.cls i))) c!"g" true, .func true, ⟨.cls i, hr, rfl, ?_⟩, List.mem_singleton.2 rfl⟩
    rcases hi with rfl | rfl <;> decide +kernel
  have hfree : ∀ i, i = 2 ∨ i = 3 → ¬ HasMember Ex.dominant c!"g" i := by
    rintro i hi ⟨op, kind, ⟨v, hv, _, hop⟩, hb⟩
    have hv' := (considered_offered hv.considered).1
    have : ∀ v ∈ Ex.dominant.visits, ∀ op ∈ opsOf Ex.dominant.E v, ∀ x ∈ op.binds, x.1 ≠ (.type c!"C", c!"g") ∧ x.1 ≠ (.type c!"D", c!"g") := by
      decide +kernel
    have := this v hv' op hop _ hb
    rcases hi with rfl | rfl
    · exact this.1 (by rw [show classQualifiedName Ex.dominant.E (Ex.dominant.E.cls 2) = c!"C" by decide +kernel])
    · exact this.2 (by rw [show classQualifiedName Ex.dominant.E (Ex.dominant.E.cls 3) = c!"D" by decide +kernel])
  have h := C96_lookup_partial Ex.dominant o _ fs' srcs h2 pairs p h3 3 1 c!"g" ?_ ⟨?_, hmem 1 (.inr rfl), ?_⟩
  · exact h.1
  · intro j hj
    have hj' := Ex.four_inherits hj (by decide)
    refine ⟨hc j (by omega), ?_⟩
    intro b hb k hk
    have key : ∀ j < 4, ∀ b ∈ (Ex.dominant.E.cls j).bases, ∀ k ∈ b.record.toList, k ∈ boundBases Ex.dominant.E (Ex.dominant.E.cls j) := by decide +kernel
    exact (mem_boundBases _ _ _).1 (key j hj' b hb k (by rw [hk]; simp))
  · exact Ex.four_db _
  · intro j hj hm
    have hj' := Ex.four_inherits hj (by decide)
    rcases (by omega : j = 0 ∨ j = 1 ∨ j = 2 ∨ j = 3) with e | e | e | e
    · rw [e]; exact Ex.four_ba _
    · rw [e]; exact .refl
    · rw [e] at hm; exact absurd hm (hfree 2 (.inl rfl))
    · rw [e] at hm; exact absurd hm (hfree 3 (.inr rfl))

/-- `B` is not bound. -/
def Ex.dominated : TransUnit := Ex.fourClasses [c!"B"]

theorem Ex.dominated_listed {i j : Nat} (h : ListedBase Ex.dominated.E i j) : i = 1 ∧ j = 0 ∨ i = 2 ∧ j = 0 ∨ i = 3 ∧ j = 2 := by
  have h' := (mem_boundBases _ _ _).2 h
  match i with
  | 0 => rw [show boundBases Ex.dominated.E (Ex.dominated.E.cls 0) = [] by decide +kernel] at h'; cases h'
  | 1 =>
    rw [show boundBases Ex.dominated.E (Ex.dominated.E.cls 1) = [0] by decide +kernel] at h'
    simp only [List.mem_cons, List.not_mem_nil, or_false] at h'
    omega
  | 2 =>
    rw [show boundBases Ex.dominated.E (Ex.dominated.E.cls 2) = [0] by decide +kernel] at h'
    simp only [List.mem_cons, List.not_mem_nil, or_false] at h'
    omega
  | 3 =>
    rw [show boundBases Ex.dominated.E (Ex.dominated.E.cls 3) = [2] by decide +kernel] at h'
    simp only [List.mem_cons, List.not_mem_nil, or_false] at h'
    omega
  | n + 4 => rw [show boundBases Ex.dominated.E (Ex.dominated.E.cls (n + 4)) = [] from rfl] at h'; cases h'

theorem Ex.dominated_nested (i : Nat) : nestedBound Ex.dominated.E (Ex.dominated.E.cls i) = [] := by
  match i with
  | 0 | 1 | 2 | 3 => rfl
  | n + 4 => rfl

theorem Ex.dominated_imports : ∃ o fs' srcs pairs p, Ex.dominated.Ends o Ex.fsEmpty (.done fs') ∧ Generated Ex.dominated o Ex.fsEmpty fs' srcs ∧
    importModule pairs (importOps Ex.dominated.E srcs) = some p := by
  obtain ⟨fs', h, _⟩ : ∃ fs', Ex.dominated.Ends { Ex.opts 1000 with single := true } Ex.fsEmpty (.done fs') ∧ (fun _ => true) fs' = true :=
    Ex.ends_after (n := 20) (by decide +kernel)
  have hreg : ∀ i a j b k, registers Ex.dominated.E (.cls i) = a ++ j :: b → j ≠ i → ListedBase Ex.dominated.E j k → k ∈ a := by
    intro i a j b k h hj _
    have hm : j ∈ registers Ex.dominated.E (.cls i) := by rw [h]; simp
    rcases registersF_cases hm with rfl | ⟨k', hk⟩
    · exact absurd rfl hj
    · rw [Ex.dominated_nested] at hk; cases hk
  have hvis : ∀ v, Reached Ex.dominated v → v ∈ Ex.dominated.visits := fun v hv => (considered_offered hv.considered).1
  have hns : ∀ v ∈ Ex.dominated.visits, namespaceOf Ex.dominated.E v = [] := by decide +kernel
  have hl : ∀ {i j}, ListedBase Ex.dominated.E i j → j < 4 ∧ i < 4 := by
    intro i j h
    have := Ex.dominated_listed h
    omega
  have hplain : BasesPlain Ex.dominated := by
    constructor
    · intro i j k h hk
      have hj := (hl h).1
      have key : ∀ j < 4, ∀ k < 4, classQualifiedName Ex.dominated.E (Ex.dominated.E.cls k) = classQualifiedName Ex.dominated.E (Ex.dominated.E.cls j) ∨
          typeNameOfRecord Ex.dominated.E k = typeNameOfRecord Ex.dominated.E j → k = j := by decide +kernel
      refine key j hj k ?_
      have := (considered_offered hk).1
      simp only [Ex.dominated, Ex.fourClasses, List.mem_cons, Visit.cls.injEq, List.not_mem_nil, or_false] at this
      omega
    · intro i j k h
      have hj := (hl h).1
      have : typeNameOfEnum Ex.dominated.E k = typeNameOfEnum Ex.dominated.E 0 := by
        unfold typeNameOfEnum stdTy
        have h1 : Ex.dominated.E.tyName (.enum k) = Ex.dominated.E.tyName (.enum 0) := rfl
        have h2 : Ex.dominated.E.tyName (Ty.enum k).canon = Ex.dominated.E.tyName (Ty.enum 0).canon := rfl
        rw [h1, h2]
      rw [this]
      have key : ∀ j < 4, typeNameOfEnum Ex.dominated.E 0 ≠ typeNameOfRecord Ex.dominated.E j := by decide +kernel
      exact key j hj
    · intro i j h
      rcases Ex.dominated_listed h with ⟨rfl, rfl⟩ | ⟨rfl, rfl⟩ | ⟨rfl, rfl⟩ <;> exact ⟨rfl, .inl rfl⟩
    · intro i j h; rcases Ex.dominated_listed h with ⟨rfl, rfl⟩ | ⟨rfl, rfl⟩ | ⟨rfl, rfl⟩ <;> decide +kernel
    · intro i j _; rfl
  have hanon : ∀ i, (Ex.dominated.E.cls i).isAnonymous = false := by
    intro i
    match i with
    | 0 | 1 | 2 | 3 => rfl
    | n + 4 => rfl
  have hcomp : Compatible (fun op => ∃ v, Reached Ex.dominated v ∧ op ∈ opsOf Ex.dominated.E v) (HasModule Ex.dominated) (fun q => if q = c!"B" then [c!"B", c!"A"] else if q = c!"C" then [c!"C", c!"A"] else if q = c!"D" then [c!"D", c!"C", c!"A"] else [q]) := by
    refine compatible_of_list (ops := Ex.dominated.visits.flatMap (opsOf Ex.dominated.E)) (pairs := [c!""].map fun n => ([], n)) ?_ ?_ (by decide +kernel)
    · rintro op ⟨v, hv, hop⟩
      exact List.mem_flatMap.2 ⟨v, hvis v hv, hop⟩
    · intro x hx
      exact hasModule_single (fun v hv => by rw [hns v (hvis v hv)]; simp) (by decide) hx
  have hone : OneDefinition Ex.dominated := by
    constructor
    · intro v hv
      have : ∀ v ∈ Ex.dominated.visits, ((opsOf Ex.dominated.E v).filterMap Op.type?).Nodup := by decide +kernel
      exact this v (hvis v hv)
    · intro v w q hv hw
      have : ∀ v ∈ Ex.dominated.visits, ∀ w ∈ Ex.dominated.visits, ∀ q ∈ (opsOf Ex.dominated.E v).filterMap Op.type?,
          q ∈ (opsOf Ex.dominated.E w).filterMap Op.type? → v = w := by decide +kernel
      exact this v (hvis v hv) w (hvis w hw) q
  obtain ⟨srcs, pairs, root, hg, _, _, p, hp⟩ := C81_import_partial Ex.dominated _ Ex.fsEmpty fs' Ex.fsEmpty_wf (by decide) (.inl rfl)
    (wellfounded_of_ranked (by decide)) h hplain hreg hone
    ⟨fun i j hj => (by rw [Ex.dominated_nested] at hj; cases hj), fun i j hj => (by rw [Ex.dominated_nested] at hj; cases hj)⟩
    (fun i _ => hanon i) (fun v hv h => by rw [hns v (hvis v hv)] at h; revert h; decide) _ hcomp
  exact ⟨_, fs', srcs, pairs, p, h, hg, hp⟩

theorem Ex.dominated_hasClass : ∀ i, i = 0 ∨ i = 2 ∨ i = 3 → HasClass Ex.dominated i := by
  intro i hi
  have hr : Reached Ex.dominated (.cls i) := by
    rcases hi with rfl | rfl | rfl
    all_goals
      refine Ex.asked (by decide +kernel) True.intro (by decide +kernel) ?_ rfl (by decide +kernel)
      unfold Converted; decide +kernel
  refine ⟨⟨.cls i, hr, rfl, ?_⟩, rfl⟩
  rcases hi with rfl | rfl | rfl <;> decide +kernel

theorem Ex.dominated_derives : Derives Ex.dominated (ListedBase Ex.dominated.E) c!"D" c!"A" := by
  have hc := Ex.dominated_hasClass
  have h0 : classQualifiedName Ex.dominated.E (Ex.dominated.E.cls 0) = c!"A" := by decide +kernel
  have h3 : classQualifiedName Ex.dominated.E (Ex.dominated.E.cls 3) = c!"D" := by decide +kernel
  rw [← h0, ← h3]
  refine .step (hc 3 (by omega)) ((mem_boundBases _ _ _).1 (show 2 ∈ boundBases Ex.dominated.E (Ex.dominated.E.cls 3) by decide +kernel)) ?_
  refine .step (hc 2 (by omega)) ((mem_boundBases _ _ _).1 (show 0 ∈ boundBases Ex.dominated.E (Ex.dominated.E.cls 2) by decide +kernel)) ?_
  exact .refl _

theorem Ex.dominated_not : ¬ Derives Ex.dominated (ListedBase Ex.dominated.E) c!"D" c!"B" := by
  have key : ∀ {q t}, Derives Ex.dominated (ListedBase Ex.dominated.E) q t → q ≠ c!"B" → t ≠ c!"B" := by
    intro q t h
    induction h with
    | refl => exact _root_.id
    | @step i j r _ hl _ ih =>
      intro _
      refine ih ?_
      have hn : ∀ j, j = 0 ∨ j = 2 → classQualifiedName Ex.dominated.E (Ex.dominated.E.cls j) ≠ c!"B" := by
        rintro j (rfl | rfl) <;> decide +kernel
      exact hn j (by have := Ex.dominated_listed hl; omega)
  exact fun h => key h (by decide) rfl

/-- C96 fails if a base is not bound: C++ finds `g` of a `D` in `B`, which hides the `g` of `A`; Python, which knows `A` through `C`, but not `B`,
finds the one of `A`, and calls of it run the wrong function. -/
theorem C96_unbound_base_false : ∃ o fs' srcs pairs p, Ex.dominated.Ends o Ex.fsEmpty (.done fs') ∧ Generated Ex.dominated o Ex.fsEmpty fs' srcs ∧
    importModule pairs (importOps Ex.dominated.E srcs) = some p ∧ HasClass Ex.dominated 3 ∧
    Finds Ex.dominated.E (fun i => ∃ f, Member.method f ∈ (Ex.dominated.E.cls i).members ∧ f.name = c!"g" ∧ f.access = .pub) 3 1 ∧
    p.owner c!"D" c!"g" = some c!"A" := by
  obtain ⟨o, fs', srcs, pairs, p, h1, h2, h3⟩ := Ex.dominated_imports
  have hc := Ex.dominated_hasClass
  refine ⟨o, fs', srcs, pairs, p, h1, h2, h3, hc 3 (by omega), ⟨?_, ?_, ?_⟩, ?_⟩
  · exact Ex.four_db _
  · exact ⟨Ex.getter 1 c!"B", by simp [Ex.dominated, Ex.fourClasses, TransUnit.E, withClasses], rfl, rfl⟩
  · intro j hj hm
    have hj' := Ex.four_inherits hj (by decide)
    rcases (by omega : j = 0 ∨ j = 1 ∨ j = 2 ∨ j = 3) with e | e | e | e
    · rw [e]; exact Ex.four_ba _
    · rw [e]; exact .refl
    · rw [e] at hm; obtain ⟨f, hf, _⟩ := hm; exact absurd hf (by rw [show (Ex.dominated.E.cls 2).members = [] from rfl]; simp)
    · rw [e] at hm; obtain ⟨f, hf, _⟩ := hm; exact absurd hf (by rw [show (Ex.dominated.E.cls 3).members = [] from rfl]; simp)
  · have hd := Ex.dominated_derives
    refine (C96_hides Ex.dominated o _ fs' srcs h2 pairs p h3 c!"D" c!"A" c!"g" hd ?_ ?_).1
    · have hr : Reached Ex.dominated (.cls 0) := by
        refine Ex.asked (by decide +kernel) True.intro (by decide +kernel) ?_ rfl (by decide +kernel)
        unfold Converted; decide +kernel
      exact (C84_names Ex.dominated o _ fs' srcs h2 pairs p h3 _ c!"g").1.2 (.inl ⟨.function (.type c!"A") c!"g" true, .func true,
        ⟨.cls 0, hr, rfl, by decide +kernel⟩, List.mem_singleton.2 rfl⟩)
    · intro r hr hs
      rcases (C84_names Ex.dominated o _ fs' srcs h2 pairs p h3 _ c!"g").1.1 hs with ⟨op, kind, ⟨v, hv, _, hop⟩, hb⟩ | ⟨x, _, e, _⟩
      · have hv' := (considered_offered hv.considered).1
        have key : ∀ v ∈ Ex.dominated.visits, ∀ op ∈ opsOf Ex.dominated.E v, ∀ x ∈ op.binds, x.1.2 = c!"g" →
            x.1.1 = .type c!"A" ∨ x.1.1 = .type c!"B" := by decide +kernel
        rcases key v hv' op hop _ hb rfl with e | e
        · cases e; exact .refl _
        · cases e
          exact absurd hr Ex.dominated_not
      · cases e

end Binder
