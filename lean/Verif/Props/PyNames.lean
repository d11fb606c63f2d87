import Verif.Spec.PyNames
import Verif.Lemmas.Spellable
import Verif.Props.Fields

/-!
# C98: the names in the module can be written in Python
-/

namespace Binder

open Cxx Spec

/-- All names that the call binds are words. -/
def WordsOnly (op : Op) : Prop := ∀ s n kind, ((s, n), kind) ∈ op.binds → PyWord n

theorem wordsOnly_overloads {F : Func} {k : Nat} {op op' : Op} (h : WordsOnly op) (hm : op' ∈ overloads F k op) : WordsOnly op' := by
  obtain ⟨_, _, rfl⟩ := List.mem_map.1 hm
  exact h

theorem wordsOnly_function {s : Scope} {n : Str} {m : Bool} (h : PyWord n) : WordsOnly (.function s n m) := by
  intro s' n' k hk
  rw [Op.binds, List.mem_singleton] at hk
  cases hk
  exact h

theorem wordsOnly_enum {s : Scope} {e : EnumD} (h : PyWord e.name) (hv : ∀ x ∈ e.enumerators, PyWord x.1) : WordsOnly (enumOp s e) := by
  intro s' n' k hk
  unfold enumOp Op.binds at hk
  rcases List.mem_cons.1 hk with hk | hk
  · cases hk; exact h
  · split at hk
    · obtain ⟨v, hv', e⟩ := List.mem_map.1 hk
      obtain ⟨x, hx, rfl⟩ := List.mem_map.1 hv'
      cases e
      exact hv x hx
    · cases hk

theorem word_init : PyWord c!"__init__" := ⟨⟨by decide, by decide, fun c h => by cases h; decide⟩, by decide⟩

theorem word_str : PyWord c!"__str__" := ⟨⟨by decide, by decide, fun c h => by cases h; decide⟩, by decide⟩

/-- Python's names of operators are words. -/
theorem word_operator {name : Str} {n : Nat} (h : (pythonOperator name n).length ≠ 0) : PyWord (pythonOperator name n) := by
  have key : ∀ p ∈ operatorTable, ∀ v ∈ p.2, v ≠ [] ∧ (∀ c ∈ v, IdentChar c = true) ∧ v.head?.all (fun c => !isDigit c) = true ∧ v ∉ pythonKeywords := by
    decide +kernel
  have hw : ∀ p ∈ operatorTable, ∀ v ∈ p.2, PyWord v := by
    intro p hp v hv
    obtain ⟨h1, h2, h3, h4⟩ := key p hp v hv
    refine ⟨⟨h1, h2, ?_⟩, h4⟩
    intro c hc
    rw [hc] at h3
    simp only [Option.all_some, Bool.not_eq_true', isDigit] at h3
    rw [h3]; decide
  unfold pythonOperator at h ⊢
  cases hl : operatorTable.lookup name with
  | none => rw [hl] at h; exact absurd rfl h
  | some vec =>
    rw [hl] at h
    simp only at h ⊢
    have hp : (name, vec) ∈ operatorTable := by
      obtain ⟨a, b, e, _⟩ := List.lookup_eq_some_iff.1 hl
      rw [e]; simp
    split
    · rename_i hn
      refine hw _ hp _ ?_
      rw [List.getD_eq_getElem?_getD, List.getElem?_eq_getElem hn]
      exact List.getElem_mem hn
    · rename_i hn
      rw [if_neg hn] at h
      refine hw _ hp _ ?_
      cases vec with
      | nil => exact absurd rfl h
      | cons a l => 
        rw [List.getLastD_eq_getLast?, List.getLast?_eq_some_getLast (by simp)]
        exact List.getLast_mem _

theorem templateBase_contributes {U : TransUnit} {sk : Nat → Prop} {i k : Nat} (h : TemplateBase U.E sk i k) (hi : Contributes U i) : Contributes U k := by
  induction h with
  | one _ hb _ _ hr _ => exact .base hi hb hr
  | more _ hb _ _ hr _ _ ih => exact ih (.base hi hb hr)

theorem class_word {U : TransUnit} (hs : U.E.simplify = simplifyStd) {C : Record} (h : OrdinaryClassName C) : PyWord (pythonClassName U.E C) := by
  have h1 := standardName_spellable U.E.simplify h.name h.null (classTemplateText_shape h.args)
  refine Spellable.word ?_
  unfold className
  simp only
  split
  · rw [hs]; exact simplifyStd_spellable h1
  · exact h1

theorem item_words {U : TransUnit} (hw : U.E.Wellfounded) (hn : OrdinaryNames U) {i : Nat} (hi : Contributes U i) {x : Item} (hx : x ∈ classItems U.E i) {s : Scope} {op : Op}
    (hop : op ∈ itemOps U.E i s x) : WordsOnly op := by
  cases x with
  | implicitDefault => rw [itemOps, List.mem_singleton] at hop; subst hop; exact wordsOnly_function word_init
  | defaultCtor t => rw [itemOps, List.mem_singleton] at hop; subst hop; exact wordsOnly_function word_init
  | copyCtor t =>
    rw [itemOps] at hop
    rcases List.mem_cons.1 hop with rfl | hop
    · exact wordsOnly_function word_init
    · split at hop
      · rw [List.mem_singleton] at hop; subst hop; exact wordsOnly_function word_init
      · cases hop
  | ctor t => exact wordsOnly_overloads (wordsOnly_function word_init) hop
  | enum e =>
    rw [itemOps, List.mem_singleton] at hop
    subst hop
    obtain ⟨h1, h2, h3, _⟩ := (C48_enums U.E hw i e).1 hx
    have h4 : (U.E.enumD e).name ≠ [] := by
      intro h0
      rw [enumBindable, h0] at h3
      simp at h3
    obtain ⟨a, b⟩ := hn.memberEnums i hi e h1 h2 h4
    exact wordsOnly_enum a b
  | field k f =>
    rw [itemOps, List.mem_singleton] at hop
    subst hop
    obtain ⟨h1, h2, _⟩ := (C48_fields U.E hw i k f).1 hx
    have hk : Contributes U k := by
      rcases h1 with rfl | h1
      · exact hi
      · exact templateBase_contributes h1 hi
    intro s' n' kind hb
    rw [Op.binds, List.mem_singleton] at hb
    cases hb
    exact hn.fields k hk f h2
  | method f parent lam =>
    obtain ⟨⟨k, h1, h2⟩, hb, _, hc, hd, _⟩ := (C48_methods U.E hw i f).1 ⟨parent, lam, hx⟩
    have hk : Contributes U k := by
      rcases h1 with rfl | h1
      · exact hi
      · exact templateBase_contributes h1 hi
    have h2' : PublicMethod (U.E.cls k) f ∨ MadePublic (U.E.cls k) (.method f) := h2.imp_right (·.1)
    simp only [functionBindable, Bool.and_eq_true, Bool.not_eq_true'] at hb
    refine wordsOnly_overloads (wordsOnly_function ?_) hop
    show PyWord (staticPrefix U.E f ++ pythonFunctionName f)
    unfold pythonFunctionName
    cases ho : f.isOperator with
    | false =>
      exact hn.methods k hk f h2' hc hd hb.1.1.1.2 ho
    | true =>
      rw [hn.operators k hk f h2' ho]
      refine word_operator ?_
      intro h0
      have := hb.1.1.1.1.1.2
      simp [ho, h0] at this
  | repr F => rw [itemOps, List.mem_singleton] at hop; subst hop; exact wordsOnly_function word_str
  | addOn f =>
    rw [itemOps, List.mem_singleton] at hop
    subst hop
    intro _ _ _ h
    cases h

theorem class_words {U : TransUnit} (hw : U.E.Wellfounded) (hs : U.E.simplify = simplifyStd) (hn : OrdinaryNames U) (k : Nat) :
    ∀ (outer : Scope) (i : Nat), Contributes U i → ∀ op ∈ classOpsF U.E k outer i, WordsOnly op := by
  induction k with
  | zero => intro _ _ _ _ h; cases h
  | succ k ih =>
    intro outer i hi op hop
    unfold classOpsF at hop
    simp only at hop
    split at hop
    · cases hop
    · split at hop
      · rw [List.mem_singleton] at hop
        subst hop
        intro _ _ _ h
        cases h
      · rcases List.mem_append.1 hop with hop | hop
        · rcases List.mem_append.1 hop with hop | hop
          · split at hop
            · cases hop
            · rename_i ha
              rw [List.mem_singleton] at hop
              subst hop
              intro s' n' kind hb
              rw [Op.binds, List.mem_singleton] at hb
              cases hb
              exact class_word hs (hn.classes i hi (by simpa using ha))
          · obtain ⟨x, hx, hop⟩ := List.mem_flatMap.1 hop
            exact item_words hw hn hi hx hop
        · obtain ⟨j, hj, hop⟩ := List.mem_flatMap.1 hop
          exact ih _ j (.member hi hj) op hop

theorem made_words {U : TransUnit} (hw : U.E.Wellfounded) (hs : U.E.simplify = simplifyStd) (hn : OrdinaryNames U) {op : Op} (h : Made U op) : WordsOnly op := by
  obtain ⟨v, hv, _, hop⟩ := h
  cases v with
  | cls i => exact class_words hw hs hn _ _ i (.bound hv) op hop
  | enm e =>
    rw [opsOf, List.mem_singleton] at hop
    subst hop
    exact wordsOnly_enum (hn.enums e hv).1 (hn.enums e hv).2
  | fn F =>
    refine wordsOnly_overloads (wordsOnly_function ?_) hop
    have ho := (considered_offered hv.considered).2
    simp only [TransUnit.offered, functionBindable, Bool.and_eq_true, Bool.not_eq_true'] at ho
    obtain ⟨h1, h2⟩ := ho
    have h3 := h2.1.1.1.1.1.2
    have hm : F.method.isNone = true := by rw [← Option.not_isSome, h1]; rfl
    rw [hm] at h3
    unfold pythonFunctionName
    simp only [Bool.true_or, Bool.and_true] at h3
    rw [h3]
    exact hn.functions F hv

/-- C98, the part that holds. If the names in the C++ program are words of Python too, then every name in the imported module is one: in the modules, in
the classes, for operators and templates as well. `pairs` are the modules for namespaces, with their parents. -/
theorem C98_words_partial (U : TransUnit) (hw : U.E.Wellfounded) (hs : U.E.simplify = simplifyStd) (o : Opts) (fs fs' : FS) (srcs : List Source)
    (hg : Generated U o fs fs' srcs) (pairs : List (Str × Str)) (p : Py) (h : importModule pairs (importOps U.E srcs) = some p)
    (hn : OrdinaryNames U) (hp : ∀ x ∈ pairs, PyWord x.2 ∨ x.2 = c!"global" ∨ x.2 = c!"nonlocal") (s : Scope) (n : Str) (hin : (p.own s n).isSome = true) :
    PyWord n := by
  rcases (C84_names U o fs fs' srcs hg pairs p h s n).1.1 hin with ⟨op, kind, hop, hb⟩ | ⟨x, hx, _, rfl⟩
  · exact made_words hw hs hn hop s n kind hb
  · unfold moduleName
    rcases hp x hx with h | h | h
    · rw [if_neg]
      · exact h
      · rintro (e | e) <;> exact h.2 (by rw [e]; decide)
    all_goals
      rw [h, if_pos (by decide)]
      exact ⟨⟨by decide, by decide, fun c h => by cases h; decide⟩, by decide⟩

/-! ## Examples -/

/-- The names of the classes below. -/
def Ex.spelledNames : Ty → Str
  | .record 0 => c!"struct A"
  | .record 1 => c!"struct B<A *>"
  | .ptr _ => c!"struct A *"
  | .basic _ => c!"int"
  | _ => c!"other"

/-- `struct A { int x; }; template<typename T> struct B : A {};` and `B<A *>`, with `+namespace` for all. -/
def Ex.spelled : TransUnit :=
  { env := withClasses { exampleEnv with tyName := Ex.spelledNames, cfg := { namespacesToBind := [c!""] }, baseRank := _root_.id, argRank := _root_.id, simplify := simplifyStd }
      [{ exampleRecord with name := c!"A", qname := c!"A", members := [.field ⟨c!"x", c!"A::x", .basic 0, .pub, false⟩] },
       { exampleRecord with
           name := c!"B", qname := c!"B", targs := some [⟨c!"A *", .type (.ptr (.record 0))⟩], hasInstantiationPoint := true
           bases := [⟨.pub, false, some 0⟩], members := [] }]
    visits := [.cls 0, .cls 1], inSystem := fun _ => false, depth := 20 }

theorem Ex.spelled_listed {i j : Nat} (h : ListedBase Ex.spelled.E i j) : i = 1 ∧ j = 0 := by
  have h' := (mem_boundBases _ _ _).2 h
  match i with
  | 0 => rw [show boundBases Ex.spelled.E (Ex.spelled.E.cls 0) = [] by decide +kernel] at h'; cases h'
  | 1 =>
    rw [show boundBases Ex.spelled.E (Ex.spelled.E.cls 1) = [0] by decide +kernel] at h'
    simp only [List.mem_cons, List.not_mem_nil, or_false] at h'
    omega
  | n + 2 => rw [show boundBases Ex.spelled.E (Ex.spelled.E.cls (n + 2)) = [] from rfl] at h'; cases h'

theorem Ex.spelled_nested (i : Nat) : nestedBound Ex.spelled.E (Ex.spelled.E.cls i) = [] := by
  match i with
  | 0 | 1 => rfl
  | n + 2 => rfl

theorem Ex.spelled_named (i : Nat) : (Ex.spelled.E.cls i).isAnonymous = false := by
  match i with
  | 0 | 1 => rfl
  | n + 2 => rfl

theorem Ex.spelled_imports : ∃ o fs' srcs pairs p, Ex.spelled.Ends o Ex.fsEmpty (.done fs') ∧ Generated Ex.spelled o Ex.fsEmpty fs' srcs ∧
    importModule pairs (importOps Ex.spelled.E srcs) = some p := by
  obtain ⟨fs', h, _⟩ : ∃ fs', Ex.spelled.Ends { Ex.opts 1000 with single := true } Ex.fsEmpty (.done fs') ∧ (fun _ => true) fs' = true :=
    Ex.ends_after (n := 20) (by decide +kernel)
  have hreg : ∀ i a j b k, registers Ex.spelled.E (.cls i) = a ++ j :: b → j ≠ i → ListedBase Ex.spelled.E j k → k ∈ a := by
    intro i a j b k h hj _
    have hm : j ∈ registers Ex.spelled.E (.cls i) := by rw [h]; simp
    rcases registersF_cases hm with rfl | ⟨k', hk⟩
    · exact absurd rfl hj
    · rw [Ex.spelled_nested] at hk; cases hk
  have hvis : ∀ v, Reached Ex.spelled v → v ∈ Ex.spelled.visits := fun v hv => (considered_offered hv.considered).1
  have hns : ∀ v ∈ Ex.spelled.visits, namespaceOf Ex.spelled.E v = [] := by decide +kernel
  have hl : ∀ {i j}, ListedBase Ex.spelled.E i j → j < 2 ∧ i < 2 := by
    intro i j h
    have := Ex.spelled_listed h
    omega
  have hplain : BasesPlain Ex.spelled := by
    constructor
    · intro i j k h hk
      have hj := (hl h).1
      have key : ∀ j < 2, ∀ k < 2, classQualifiedName Ex.spelled.E (Ex.spelled.E.cls k) = classQualifiedName Ex.spelled.E (Ex.spelled.E.cls j) ∨
          typeNameOfRecord Ex.spelled.E k = typeNameOfRecord Ex.spelled.E j → k = j := by decide +kernel
      refine key j hj k ?_
      have := (considered_offered hk).1
      simp only [Ex.spelled, List.mem_cons, Visit.cls.injEq, List.not_mem_nil, or_false] at this
      omega
    · intro i j k h
      have hj := (hl h).1
      have : typeNameOfEnum Ex.spelled.E k = typeNameOfEnum Ex.spelled.E 0 := by
        unfold typeNameOfEnum stdTy
        have h1 : Ex.spelled.E.tyName (.enum k) = Ex.spelled.E.tyName (.enum 0) := rfl
        have h2 : Ex.spelled.E.tyName (Ty.enum k).canon = Ex.spelled.E.tyName (Ty.enum 0).canon := rfl
        rw [h1, h2]
      rw [this]
      have key : ∀ j < 2, typeNameOfEnum Ex.spelled.E 0 ≠ typeNameOfRecord Ex.spelled.E j := by decide +kernel
      exact key j hj
    · intro i j h
      rcases Ex.spelled_listed h with ⟨rfl, rfl⟩ <;> exact ⟨rfl, .inl rfl⟩
    · intro i j h; rcases Ex.spelled_listed h with ⟨rfl, rfl⟩ <;> decide +kernel
    · intro i j _; rfl
  have hanon := Ex.spelled_named
  have hcomp : Compatible (fun op => ∃ v, Reached Ex.spelled v ∧ op ∈ opsOf Ex.spelled.E v) (HasModule Ex.spelled) (fun q => if q = c!"B<A *>" then [c!"B<A *>", c!"A"] else [q]) := by
    refine compatible_of_list (ops := Ex.spelled.visits.flatMap (opsOf Ex.spelled.E)) (pairs := [c!""].map fun n => ([], n)) ?_ ?_ (by decide +kernel)
    · rintro op ⟨v, hv, hop⟩
      exact List.mem_flatMap.2 ⟨v, hvis v hv, hop⟩
    · intro x hx
      exact hasModule_single (fun v hv => by rw [hns v (hvis v hv)]; simp) (by decide) hx
  have hone : OneDefinition Ex.spelled := by
    constructor
    · intro v hv
      have : ∀ v ∈ Ex.spelled.visits, ((opsOf Ex.spelled.E v).filterMap Op.type?).Nodup := by decide +kernel
      exact this v (hvis v hv)
    · intro v w q hv hw
      have : ∀ v ∈ Ex.spelled.visits, ∀ w ∈ Ex.spelled.visits, ∀ q ∈ (opsOf Ex.spelled.E v).filterMap Op.type?,
          q ∈ (opsOf Ex.spelled.E w).filterMap Op.type? → v = w := by decide +kernel
      exact this v (hvis v hv) w (hvis w hw) q
  obtain ⟨srcs, pairs, root, hg, _, _, p, hp⟩ := C81_import_partial Ex.spelled _ Ex.fsEmpty fs' Ex.fsEmpty_wf (by decide) (.inl rfl)
    (wellfounded_of_ranked (by decide)) h hplain hreg hone
    ⟨fun i j hj => (by rw [Ex.spelled_nested] at hj; cases hj), fun i j hj => (by rw [Ex.spelled_nested] at hj; cases hj)⟩
    (fun i _ => hanon i) (fun v hv h => by rw [hns v (hvis v hv)] at h; revert h; decide) _ hcomp
  exact ⟨_, fs', srcs, pairs, p, h, hg, hp⟩

theorem Ex.spelled_hasClass : ∀ i, i = 0 ∨ i = 1 → HasClass Ex.spelled i := by
  intro i hi
  have hr : Reached Ex.spelled (.cls i) := by
    rcases hi with rfl | rfl
    all_goals
      refine Ex.asked (by decide +kernel) True.intro (by decide +kernel) ?_ rfl (by decide +kernel)
      unfold Converted; decide +kernel
  refine ⟨⟨.cls i, hr, rfl, ?_⟩, rfl⟩
  rcases hi with rfl | rfl <;> decide +kernel

theorem Ex.spelled_ordinary : OrdinaryNames Ex.spelled := by
  have hw : ∀ n ∈ [c!"A", c!"B", c!"x"], PyWord n := by
    intro n hn
    simp only [List.mem_cons, List.not_mem_nil, or_false] at hn
    rcases hn with rfl | rfl | rfl
    all_goals exact ⟨⟨by decide, by decide, fun c h => by cases h; decide⟩, by decide⟩
  have hvis : ∀ v, Reached Ex.spelled v → v ∈ Ex.spelled.visits := fun v hv => (considered_offered hv.considered).1
  have hc : ∀ i, Contributes Ex.spelled i → i = 0 ∨ i = 1 := by
    intro i h
    induction h with
    | bound h =>
      have := hvis _ h
      simpa only [Ex.spelled, List.mem_cons, Visit.cls.injEq, List.not_mem_nil, or_false] using this
    | member _ h => rw [Ex.spelled_nested] at h; cases h
    | @base i j b _ hb hr ih =>
      rcases ih with rfl | rfl
      · cases hb
      · rw [show (Ex.spelled.E.cls 1).bases = [⟨.pub, false, some 0⟩] from rfl, List.mem_singleton] at hb
        subst hb
        left
        exact (Option.some.inj hr).symm
  have m0 : (Ex.spelled.E.cls 0).members = [.field ⟨c!"x", c!"A::x", .basic 0, .pub, false⟩] := rfl
  have m1 : (Ex.spelled.E.cls 1).members = [] := rfl
  have hmeth : ∀ i, Contributes Ex.spelled i → ∀ m, ¬ (PublicMethod (Ex.spelled.E.cls i) m ∨ MadePublic (Ex.spelled.E.cls i) (.method m)) := by
    intro i hi m h
    rcases hc i hi with rfl | rfl
    · rcases h with ⟨_, h | ⟨_, h, _⟩⟩ | ⟨_, h, _⟩ <;> rw [m0, List.mem_singleton] at h <;> cases h
    · rcases h with ⟨_, h | ⟨_, h, _⟩⟩ | ⟨_, h, _⟩ <;> rw [m1] at h <;> cases h
  constructor
  · intro F hF
    have := hvis _ hF
    simp [Ex.spelled] at this
  · intro e he
    have := hvis _ he
    simp [Ex.spelled] at this
  · intro i hi _
    rcases hc i hi with rfl | rfl
    · exact ⟨hw _ (by decide), by decide, fun as h => by cases h⟩
    · refine ⟨hw _ (by decide), by decide, ?_⟩
      intro as h a ha
      have : as = [⟨c!"A *", .type (.ptr (.record 0))⟩] := (Option.some.inj h).symm
      rw [this, List.mem_singleton] at ha
      subst ha
      decide
  · intro i hi f hf
    rcases hc i hi with rfl | rfl
    · rcases hf with ⟨_, h⟩ | ⟨_, h, _⟩
      · rw [m0, List.mem_singleton] at h
        injection h with h
        rw [h]
        exact hw _ (by decide)
      · rw [m0, List.mem_singleton] at h; cases h
    · rcases hf with ⟨_, h⟩ | ⟨_, h, _⟩ <;> rw [m1] at h <;> cases h
  · intro i hi m h
    exact absurd h (hmeth i hi m)
  · intro i hi m h
    exact absurd h (hmeth i hi m)
  · intro i hi e h
    rcases hc i hi with rfl | rfl
    · rw [m0, List.mem_singleton] at h; cases h
    · rw [m1] at h; cases h

/-- A case of `C98_words_partial`: the module for `Ex.spelled` has a class `B_A__star__t`, and all names in it are words. -/
example : ∃ o fs' srcs pairs p, Ex.spelled.Ends o Ex.fsEmpty (.done fs') ∧ Generated Ex.spelled o Ex.fsEmpty fs' srcs ∧
    importModule pairs (importOps Ex.spelled.E srcs) = some p ∧ (p.own (.module []) c!"B_A__star__t").isSome = true ∧
    ((∀ x ∈ pairs, PyWord x.2 ∨ x.2 = c!"global" ∨ x.2 = c!"nonlocal") → ∀ s n, (p.own s n).isSome = true → PyWord n) := by
  obtain ⟨o, fs', srcs, pairs, p, h1, h2, h3⟩ := Ex.spelled_imports
  refine ⟨o, fs', srcs, pairs, p, h1, h2, h3, ?_, ?_⟩
  · obtain ⟨⟨v, hv, hv', hj⟩, _⟩ := Ex.spelled_hasClass 1 (.inr rfl)
    refine (C84_names Ex.spelled o _ fs' srcs h2 pairs p h3 _ c!"B_A__star__t").1.2 (.inl ⟨.class_ (.module []) c!"B_A__star__t" c!"B<A *>" [c!"A"], .object,
      ⟨.cls 1, ?_, rfl, by decide +kernel⟩, List.mem_singleton.2 rfl⟩)
    refine Ex.asked (by decide +kernel) True.intro (by decide +kernel) ?_ rfl (by decide +kernel)
    unfold Converted; decide +kernel
  · intro hp s n hn
    exact C98_words_partial Ex.spelled (wellfounded_of_ranked (by decide)) rfl o _ fs' srcs h2 pairs p h3 Ex.spelled_ordinary hp s n hn

/-- The names of the classes below. -/
def Ex.unspelledNames : Ty → Str
  | .record 0 => c!"struct K"
  | .record 1 => c!"struct Signal<void (int)>"
  | .fn _ _ => c!"void (int)"
  | .basic _ => c!"int"
  | _ => c!"other"

/-- `struct K { int from; }; template<typename T> struct Signal : K {};` and `Signal<void (int)>`, with `+namespace` for all. -/
def Ex.unspelled : TransUnit :=
  { env := withClasses { exampleEnv with tyName := Ex.unspelledNames, cfg := { namespacesToBind := [c!""] }, baseRank := _root_.id, argRank := _root_.id, simplify := simplifyStd }
      [{ exampleRecord with name := c!"K", qname := c!"K", members := [.field ⟨c!"from", c!"K::from", .basic 0, .pub, false⟩] },
       { exampleRecord with
           name := c!"Signal", qname := c!"Signal", targs := some [⟨c!"void (int)", .type (.fn (.basic 1) [.basic 0])⟩], hasInstantiationPoint := true
           bases := [⟨.pub, false, some 0⟩], members := [] }]
    visits := [.cls 0, .cls 1], inSystem := fun _ => false, depth := 20 }

theorem Ex.unspelled_listed {i j : Nat} (h : ListedBase Ex.unspelled.E i j) : i = 1 ∧ j = 0 := by
  have h' := (mem_boundBases _ _ _).2 h
  match i with
  | 0 => rw [show boundBases Ex.unspelled.E (Ex.unspelled.E.cls 0) = [] by decide +kernel] at h'; cases h'
  | 1 =>
    rw [show boundBases Ex.unspelled.E (Ex.unspelled.E.cls 1) = [0] by decide +kernel] at h'
    simp only [List.mem_cons, List.not_mem_nil, or_false] at h'
    omega
  | n + 2 => rw [show boundBases Ex.unspelled.E (Ex.unspelled.E.cls (n + 2)) = [] from rfl] at h'; cases h'

theorem Ex.unspelled_nested (i : Nat) : nestedBound Ex.unspelled.E (Ex.unspelled.E.cls i) = [] := by
  match i with
  | 0 | 1 => rfl
  | n + 2 => rfl

theorem Ex.unspelled_named (i : Nat) : (Ex.unspelled.E.cls i).isAnonymous = false := by
  match i with
  | 0 | 1 => rfl
  | n + 2 => rfl

theorem Ex.unspelled_imports : ∃ o fs' srcs pairs p, Ex.unspelled.Ends o Ex.fsEmpty (.done fs') ∧ Generated Ex.unspelled o Ex.fsEmpty fs' srcs ∧
    importModule pairs (importOps Ex.unspelled.E srcs) = some p := by
  obtain ⟨fs', h, _⟩ : ∃ fs', Ex.unspelled.Ends { Ex.opts 1000 with single := true } Ex.fsEmpty (.done fs') ∧ (fun _ => true) fs' = true :=
    Ex.ends_after (n := 20) (by decide +kernel)
  have hreg : ∀ i a j b k, registers Ex.unspelled.E (.cls i) = a ++ j :: b → j ≠ i → ListedBase Ex.unspelled.E j k → k ∈ a := by
    intro i a j b k h hj _
    have hm : j ∈ registers Ex.unspelled.E (.cls i) := by rw [h]; simp
    rcases registersF_cases hm with rfl | ⟨k', hk⟩
    · exact absurd rfl hj
    · rw [Ex.unspelled_nested] at hk; cases hk
  have hvis : ∀ v, Reached Ex.unspelled v → v ∈ Ex.unspelled.visits := fun v hv => (considered_offered hv.considered).1
  have hns : ∀ v ∈ Ex.unspelled.visits, namespaceOf Ex.unspelled.E v = [] := by decide +kernel
  have hl : ∀ {i j}, ListedBase Ex.unspelled.E i j → j < 2 ∧ i < 2 := by
    intro i j h
    have := Ex.unspelled_listed h
    omega
  have hplain : BasesPlain Ex.unspelled := by
    constructor
    · intro i j k h hk
      have hj := (hl h).1
      have key : ∀ j < 2, ∀ k < 2, classQualifiedName Ex.unspelled.E (Ex.unspelled.E.cls k) = classQualifiedName Ex.unspelled.E (Ex.unspelled.E.cls j) ∨
          typeNameOfRecord Ex.unspelled.E k = typeNameOfRecord Ex.unspelled.E j → k = j := by decide +kernel
      refine key j hj k ?_
      have := (considered_offered hk).1
      simp only [Ex.unspelled, List.mem_cons, Visit.cls.injEq, List.not_mem_nil, or_false] at this
      omega
    · intro i j k h
      have hj := (hl h).1
      have : typeNameOfEnum Ex.unspelled.E k = typeNameOfEnum Ex.unspelled.E 0 := by
        unfold typeNameOfEnum stdTy
        have h1 : Ex.unspelled.E.tyName (.enum k) = Ex.unspelled.E.tyName (.enum 0) := rfl
        have h2 : Ex.unspelled.E.tyName (Ty.enum k).canon = Ex.unspelled.E.tyName (Ty.enum 0).canon := rfl
        rw [h1, h2]
      rw [this]
      have key : ∀ j < 2, typeNameOfEnum Ex.unspelled.E 0 ≠ typeNameOfRecord Ex.unspelled.E j := by decide +kernel
      exact key j hj
    · intro i j h
      rcases Ex.unspelled_listed h with ⟨rfl, rfl⟩ <;> exact ⟨rfl, .inl rfl⟩
    · intro i j h; rcases Ex.unspelled_listed h with ⟨rfl, rfl⟩ <;> decide +kernel
    · intro i j _; rfl
  have hanon := Ex.unspelled_named
  have hcomp : Compatible (fun op => ∃ v, Reached Ex.unspelled v ∧ op ∈ opsOf Ex.unspelled.E v) (HasModule Ex.unspelled) (fun q => if q = c!"Signal<void (int)>" then [c!"Signal<void (int)>", c!"K"] else [q]) := by
    refine compatible_of_list (ops := Ex.unspelled.visits.flatMap (opsOf Ex.unspelled.E)) (pairs := [c!""].map fun n => ([], n)) ?_ ?_ (by decide +kernel)
    · rintro op ⟨v, hv, hop⟩
      exact List.mem_flatMap.2 ⟨v, hvis v hv, hop⟩
    · intro x hx
      exact hasModule_single (fun v hv => by rw [hns v (hvis v hv)]; simp) (by decide) hx
  have hone : OneDefinition Ex.unspelled := by
    constructor
    · intro v hv
      have : ∀ v ∈ Ex.unspelled.visits, ((opsOf Ex.unspelled.E v).filterMap Op.type?).Nodup := by decide +kernel
      exact this v (hvis v hv)
    · intro v w q hv hw
      have : ∀ v ∈ Ex.unspelled.visits, ∀ w ∈ Ex.unspelled.visits, ∀ q ∈ (opsOf Ex.unspelled.E v).filterMap Op.type?,
          q ∈ (opsOf Ex.unspelled.E w).filterMap Op.type? → v = w := by decide +kernel
      exact this v (hvis v hv) w (hvis w hw) q
  obtain ⟨srcs, pairs, root, hg, _, _, p, hp⟩ := C81_import_partial Ex.unspelled _ Ex.fsEmpty fs' Ex.fsEmpty_wf (by decide) (.inl rfl)
    (wellfounded_of_ranked (by decide)) h hplain hreg hone
    ⟨fun i j hj => (by rw [Ex.unspelled_nested] at hj; cases hj), fun i j hj => (by rw [Ex.unspelled_nested] at hj; cases hj)⟩
    (fun i _ => hanon i) (fun v hv h => by rw [hns v (hvis v hv)] at h; revert h; decide) _ hcomp
  exact ⟨_, fs', srcs, pairs, p, h, hg, hp⟩

theorem Ex.unspelled_hasClass : ∀ i, i = 0 ∨ i = 1 → HasClass Ex.unspelled i := by
  intro i hi
  have hr : Reached Ex.unspelled (.cls i) := by
    rcases hi with rfl | rfl
    all_goals
      refine Ex.asked (by decide +kernel) True.intro (by decide +kernel) ?_ rfl (by decide +kernel)
      unfold Converted; decide +kernel
  refine ⟨⟨.cls i, hr, rfl, ?_⟩, rfl⟩
  rcases hi with rfl | rfl <;> decide +kernel

/-- C98 fails: a data member `from` is an attribute with the name of a keyword, so that `k.from` is no Python; and the class `Signal<void (int)>` is called
`Signal_void_(int)_t`. Both can be reached with `getattr` only. -/
theorem C98_words_false : ∃ o fs' srcs pairs p, Ex.unspelled.Ends o Ex.fsEmpty (.done fs') ∧ Generated Ex.unspelled o Ex.fsEmpty fs' srcs ∧
    importModule pairs (importOps Ex.unspelled.E srcs) = some p ∧
    (p.own (.type c!"K") c!"from").isSome = true ∧ IsIdentifier c!"from" ∧ ¬ PyWord c!"from" ∧
    (p.own (.module []) c!"Signal_void_(int)_t").isSome = true ∧ ¬ IsIdentifier c!"Signal_void_(int)_t" := by
  obtain ⟨o, fs', srcs, pairs, p, h1, h2, h3⟩ := Ex.unspelled_imports
  have hr : ∀ i, i = 0 ∨ i = 1 → Reached Ex.unspelled (.cls i) := by
    rintro i (rfl | rfl)
    all_goals
      refine Ex.asked (by decide +kernel) True.intro (by decide +kernel) ?_ rfl (by decide +kernel)
      unfold Converted; decide +kernel
  refine ⟨o, fs', srcs, pairs, p, h1, h2, h3, ?_, ⟨by decide, by decide, fun c h => by cases h; decide⟩, fun h => h.2 (by decide), ?_,
    fun h => absurd (h.2.1 '(' (by decide)) (by decide)⟩
  · exact (C84_names Ex.unspelled o _ fs' srcs h2 pairs p h3 _ c!"from").1.2 (.inl ⟨.property (.type c!"K") c!"from", .object,
      ⟨.cls 0, hr 0 (.inl rfl), rfl, by decide +kernel⟩, List.mem_singleton.2 rfl⟩)
  · exact (C84_names Ex.unspelled o _ fs' srcs h2 pairs p h3 _ _).1.2 (.inl ⟨.class_ (.module []) c!"Signal_void_(int)_t" c!"Signal<void (int)>" [c!"K"], .object,
      ⟨.cls 1, hr 1 (.inr rfl), rfl, by decide +kernel⟩, List.mem_singleton.2 rfl⟩)

end Binder
