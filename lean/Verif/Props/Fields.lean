import Verif.Spec.Fields
import Verif.Props.Lookup

/-!
# C97: data members as attributes of Python objects
-/

namespace Binder

open Cxx Spec

/-- The data members with the name, as calls. -/
def slotOps (s : Scope) (n : Str) (l : List (Scope × Slot)) : List Op :=
  ((l.filter fun x => decide (x.1 = s) && decide (x.2.field.name = n)).map (·.2)).map fun _ => .property s n

theorem slotOps_append (s : Scope) (n : Str) (a b : List (Scope × Slot)) : slotOps s n (a ++ b) = slotOps s n a ++ slotOps s n b := by
  simp [slotOps]

theorem overloads_sets (F : Func) (k : Nat) (t : Scope) (m : Str) (b : Bool) (s : Scope) (n : Str) :
    (overloads F k (.function t m b)).filter (Op.sets s n) = [] := by
  rw [List.filter_eq_nil_iff]
  intro op hop
  unfold overloads at hop
  obtain ⟨_, _, rfl⟩ := List.mem_map.1 hop
  simp [Op.sets]

theorem items_slots (E : Env) (i : Nat) (t s : Scope) (n : Str) (l : List Item) :
    (l.flatMap (itemOps E i t)).filter (Op.sets s n) = slotOps s n (l.filterMap (itemSlot t)) := by
  induction l with
  | nil => rfl
  | cons x l ih =>
    rw [List.flatMap_cons, List.filter_append, ih, List.filterMap_cons]
    cases x with
    | field o f =>
      simp only [itemOps, itemSlot]
      rw [← List.singleton_append (l := List.filterMap _ l), slotOps_append]
      congr 1
      unfold slotOps
      rw [List.filter_cons, List.filter_nil, List.filter_cons, List.filter_nil]
      by_cases hs : (decide (t = s) && decide (f.name = n)) = true
      · rw [if_pos (show Op.sets s n (.property t f.name) = true from hs), if_pos hs]
        rw [Bool.and_eq_true, decide_eq_true_eq, decide_eq_true_eq] at hs
        rw [hs.1, hs.2]; rfl
      · rw [if_neg (show ¬ Op.sets s n (.property t f.name) = true from hs), if_neg hs]; rfl
    | method f parent lam => simp only [itemOps, overloads_sets, itemSlot, List.nil_append]
    | ctor c => simp only [itemOps, overloads_sets, itemSlot, List.nil_append]
    | copyCtor c =>
      simp only [itemOps, itemSlot]
      rw [List.filter_eq_nil_iff.2]
      · rfl
      · intro a ha
        rcases List.mem_cons.1 ha with rfl | ha
        · simp [Op.sets]
        · split at ha
          · rw [List.mem_singleton] at ha; subst ha; simp [Op.sets]
          · cases ha
    | implicitDefault => simp [itemOps, itemSlot, Op.sets]
    | defaultCtor c => simp [itemOps, itemSlot, Op.sets]
    | repr F => simp [itemOps, itemSlot, Op.sets]
    | enum e => simp [itemOps, itemSlot, enumOp, Op.sets]
    | addOn f => simp [itemOps, itemSlot, Op.sets]

theorem class_slots (E : Env) (s : Scope) (n : Str) (k : Nat) : ∀ (outer : Scope) (i : Nat),
    (classOpsF E k outer i).filter (Op.sets s n) = slotOps s n (classSlotsF E k outer i) := by
  induction k with
  | zero => intro outer i; rfl
  | succ k ih =>
    intro outer i
    unfold classOpsF classSlotsF
    simp only
    split
    · rfl
    · split
      · simp [Op.sets, slotOps]
      · rw [List.filter_append, List.filter_append, items_slots, slotOps_append]
        congr 1
        · split <;> simp [Op.sets]
        · generalize nestedBound E (E.cls i) = l
          induction l with
          | nil => rfl
          | cons m l ihl => rw [List.flatMap_cons, List.flatMap_cons, List.filter_append, slotOps_append, ih, ihl]

theorem stmts_slots (E : Env) (s : Scope) (n : Str) (l : List Stmt) :
    (l.flatMap (Stmt.ops E)).filter (Op.sets s n) = slotOps s n ((l.filterMap Stmt.bound).flatMap (slotsOf E)) := by
  induction l with
  | nil => rfl
  | cons a l ih =>
    rw [List.flatMap_cons, List.filter_append, ih]
    cases a with
    | binds v =>
      show List.filter _ (opsOf E v) ++ _ = slotOps s n ((v :: l.filterMap Stmt.bound).flatMap (slotsOf E))
      rw [List.flatMap_cons, slotOps_append]
      congr 1
      cases v with
      | cls i => exact class_slots E s n _ _ i
      | fn F => unfold opsOf; rw [overloads_sets]; rfl
      | enm i => simp [opsOf, enumOp, Op.sets, slotsOf, slotOps]
    | calls f ns => rfl
    | traces k t => rfl

theorem import_slots (E : Env) (srcs : List Source) (s : Scope) (n : Str) :
    (importOps E srcs).filter (Op.sets s n) = (slotsIn E srcs s n).map fun _ => .property s n := by
  rw [importOps_eq, stmts_slots, bound_stmts]; rfl

theorem mem_slotsIn {E : Env} {srcs : List Source} {s : Scope} {n : Str} {x : Slot} :
    x ∈ slotsIn E srcs s n ↔ (∃ v ∈ srcs.flatMap Source.bound, (s, x) ∈ slotsOf E v) ∧ x.field.name = n := by
  unfold slotsIn
  rw [List.mem_map]
  constructor
  · rintro ⟨⟨t, b'⟩, h, rfl⟩
    rw [List.mem_filter, List.mem_flatMap, Bool.and_eq_true, decide_eq_true_eq, decide_eq_true_eq] at h
    obtain ⟨⟨v, hv, h⟩, rfl, e⟩ := h
    exact ⟨⟨v, hv, h⟩, e⟩
  · rintro ⟨⟨v, hv, h⟩, e⟩
    exact ⟨(s, x), List.mem_filter.2 ⟨List.mem_flatMap.2 ⟨v, hv, h⟩, by simp [e]⟩, rfl⟩

theorem mem_classSlots (E : Env) (k : Nat) : ∀ (outer : Scope) (i : Nat) (s : Scope) (x : Slot), (s, x) ∈ classSlotsF E k outer i →
    ∃ j, Item.field x.owner x.field ∈ classItems E j ∧ E.cfg.binders (stdName E (E.cls j).qname) = none ∧
      ((E.cls j).isAnonymous = false → s = .type (classQualifiedName E (E.cls j)) ∧ j ∈ registersF E k i) := by
  induction k with
  | zero => intro outer i s b h; cases h
  | succ k ih =>
    intro outer i s b h
    unfold classSlotsF at h
    unfold registersF
    simp only at h
    split at h
    · cases h
    · rename_i hbi
      split at h
      · cases h
      · rename_i hx
        rw [if_neg hbi, if_neg hx]
        rcases List.mem_append.1 h with h | h
        · obtain ⟨it, hit, e⟩ := List.mem_filterMap.1 h
          cases it <;> simp only [itemSlot, Option.some.injEq, Prod.mk.injEq, reduceCtorEq] at e
          obtain ⟨rfl, rfl⟩ := e
          refine ⟨i, hit, by simpa using hx, ?_⟩
          intro ha; simp [ha]
        · obtain ⟨m, hm, h⟩ := List.mem_flatMap.1 h
          obtain ⟨j, h1, h2, h3⟩ := ih _ _ _ _ h
          exact ⟨j, h1, h2, fun ha => ⟨(h3 ha).1, List.mem_append_right _ (List.mem_flatMap.2 ⟨m, hm, (h3 ha).2⟩)⟩⟩

theorem classSlots_mem (E : Env) (k : Nat) : ∀ (outer : Scope) (i j : Nat), j ∈ registersF E k i →
    E.cfg.binders (stdName E (E.cls j).qname) = none → ∀ x : Slot, Item.field x.owner x.field ∈ classItems E j →
    (.type (classQualifiedName E (E.cls j)), x) ∈ classSlotsF E k outer i := by
  induction k with
  | zero => intro outer i j h; cases h
  | succ k ih =>
    intro outer i j h hx b hb
    rw [registersF] at h
    simp only [classSlotsF]
    split at h
    · cases h
    · rename_i hbi
      rw [if_neg hbi]
      split at h
      · rename_i hx'
        rw [List.mem_singleton] at h
        subst h
        rw [hx] at hx'
        cases hx'
      · rename_i hx'
        rw [if_neg hx']
        rcases List.mem_append.1 h with h | h
        · split at h
          · cases h
          · rename_i ha
            rw [List.mem_singleton] at h
            subst h
            rw [if_neg ha]
            exact List.mem_append_left _ (List.mem_filterMap.2 ⟨_, hb, rfl⟩)
        · obtain ⟨m, hm, h⟩ := List.mem_flatMap.1 h
          exact List.mem_append_right _ (List.mem_flatMap.2 ⟨m, hm, ih _ m j h hx b hb⟩)

/-- C97. The properties of the Python class for a C++ class are those of the data members of the class that are bound (see `C48_fields`), in the
order of their statements, apart from those of anonymous classes. -/
theorem C97_slots (U : TransUnit) (o : Opts) (fs fs' : FS) (srcs : List Source) (hg : Generated U o fs fs' srcs) (pairs : List (Str × Str)) (p : Py)
    (h : importModule pairs (importOps U.E srcs) = some p) (i : Nat) (hi : HasClass U i) (n : Str)
    (hanon : ∀ k o f, (U.E.cls k).isAnonymous = true → Item.field o f ∈ classItems U.E k → f.name ≠ n) (x : Slot) :
    x ∈ slotsIn U.E srcs (.type (classQualifiedName U.E (U.E.cls i))) n ↔ Item.field x.owner x.field ∈ classItems U.E i ∧ x.field.name = n := by
  rw [mem_slotsIn]
  constructor
  · rintro ⟨⟨v, hv, hx⟩, e⟩
    refine ⟨?_, e⟩
    have hr := (hg.exactly v).1 hv
    cases v with
    | fn F => cases hx
    | enm j => cases hx
    | cls k =>
      obtain ⟨j, h1, h2, h3⟩ := mem_classSlots U.E _ _ _ _ _ hx
      have ha : (U.E.cls j).isAnonymous = false := by
        cases ha : (U.E.cls j).isAnonymous with
        | false => rfl
        | true => exact absurd e (hanon j _ _ ha h1)
      obtain ⟨h4, h5⟩ := h3 ha
      rw [Scope.type.injEq] at h4
      rw [hasClass_unique hg h hi ⟨⟨.cls k, hr.1, hr.2, h5⟩, h2⟩ h4]
      exact h1
  · rintro ⟨hx, e⟩
    obtain ⟨⟨v, hv, hns, hreg⟩, hb⟩ := hi
    refine ⟨⟨v, (hg.exactly v).2 ⟨hv, hns⟩, ?_⟩, e⟩
    cases v with
    | fn F => cases hreg
    | enm i => cases hreg
    | cls k => exact classSlots_mem U.E _ _ k i hreg hb x hx

theorem getLast?_all {α : Type} {l : List α} {a : α} (hm : a ∈ l) (h : ∀ x ∈ l, x = a) : l.getLast? = some a := by
  obtain ⟨b, hb⟩ := Option.isSome_iff_exists.1 (show l.getLast?.isSome = true by
    cases l with
    | nil => cases hm
    | cons b l => simp)
  rw [hb, h b (List.mem_of_getLast? hb)]

/-- C97, the part that holds. Let a class have a bound data member `n` (see `C48_fields`), let no other field of the class have this name, nor one of the
bases whose members are bound as members of the class, nor one of an anonymous class, and let nothing else in its Python class have the name. Then
`n` of the Python class is a property for this data member, made by a statement that names the class and the field. Python finds it for
objects of all classes for which C++ finds it, if Python knows these classes and their bases. -/
theorem C97_field_partial (U : TransUnit) (hw : U.E.Wellfounded) (o : Opts) (fs fs' : FS) (srcs : List Source) (hg : Generated U o fs fs' srcs)
    (pairs : List (Str × Str)) (p : Py) (h : importModule pairs (importOps U.E srcs) = some p) (i : Nat) (hi : HasClass U i) (q : Str)
    (hq : q = classQualifiedName U.E (U.E.cls i)) (f : Field)
    (hf : PublicField (U.E.cls i) f ∨ MadePublic (U.E.cls i) (.field f)) (hskip : fieldSkippingRequested U.E.cfg f.qname = false)
    (hbind : fieldBindable U.E f = true)
    (hown : ∀ g, PublicField (U.E.cls i) g ∨ MadePublic (U.E.cls i) (.field g) → g.name = f.name → g = f)
    (hbase : ∀ k g, TemplateBase U.E (fun j => skipClass U.E j ≠ .ok false) i k →
      PublicField (U.E.cls k) g ∨ MadePublic (U.E.cls k) (.field g) → g.name ≠ f.name)
    (hanon : ∀ k o g, (U.E.cls k).isAnonymous = true → Item.field o g ∈ classItems U.E k → g.name ≠ f.name)
    (honly : ∀ op kind, Made U op → ((.type q, f.name), kind) ∈ op.binds → op = .property (.type q) f.name) :
    p.own (.type q) f.name = some .object ∧ slotOf U.E srcs q f.name = some ⟨i, f⟩ ∧
    (q.getLast? ≠ some ')' → f.ty.unqual = f.ty.head →
      itemText U.E i (.field i f) = c!"\tcl" ++ fieldText (open Classical in decide (ReadOnly U.E f)) f.name q ++ c!";\n") ∧
    ∀ j, WholeHierarchy U (ListedBase U.E) j → Finds U.E (HasMember U f.name) j i →
      p.owner (classQualifiedName U.E (U.E.cls j)) f.name = some q := by
  have hitem : Item.field i f ∈ classItems U.E i := (C48_fields U.E hw i i f).2 ⟨.inl rfl, hf, hskip, hbind⟩
  have hslots := C97_slots U o fs fs' srcs hg pairs p h i hi f.name hanon
  rw [← hq] at hslots
  have hin : (⟨i, f⟩ : Slot) ∈ slotsIn U.E srcs (.type q) f.name := (hslots ⟨i, f⟩).2 ⟨hitem, rfl⟩
  refine ⟨?_, ?_, ?_, ?_⟩
  · have hop : Op.property (.type q) f.name ∈ (importOps U.E srcs).filter (Op.sets (.type q) f.name) := by
      rw [import_slots]
      exact List.mem_map.2 ⟨_, hin, rfl⟩
    have hmade := (mem_importOps hg _ (by simp)).1 (List.mem_filter.1 hop).1
    obtain ⟨k1, k2⟩ := C84_names U o fs fs' srcs hg pairs p h (.type q) f.name
    obtain ⟨kind, ho⟩ := Option.isSome_iff_exists.1 (k1.2 (.inl ⟨_, .object, hmade, by simp [Op.binds]⟩))
    rw [ho]
    rcases k2 kind ho with ⟨op, hop, hk⟩ | ⟨_, x, _, e, _⟩
    · have := honly op kind hop hk
      rw [this] at hk
      simp only [Op.binds, List.mem_singleton, Prod.mk.injEq] at hk
      rw [hk.2]
    · cases e
  · refine getLast?_all hin fun x hx => ?_
    obtain ⟨hx, e⟩ := (hslots x).1 hx
    obtain ⟨ho, hpub, _, _⟩ := (C48_fields U.E hw i _ _).1 hx
    obtain ⟨owner, g⟩ := x
    rcases ho with rfl | ho
    · rw [hown g hpub e]
    · exact absurd e (hbase owner g ho hpub)
  · intro hlast hty
    obtain ⟨owner, ht, ho, _⟩ := C62_readonly_partial U.E f q hty
    show c!"\tcl" ++ dataMemberText U.E f (classQualifiedName U.E (U.E.cls i)) ++ c!";\n" = _
    rw [← hq, ht, ho hlast]
  · intro j hj hfinds
    rw [hq]
    exact (C96_lookup_partial U o fs fs' srcs hg pairs p h j i f.name hj hfinds).1

/-! ## Examples -/

/-- The names of the classes below. -/
def Ex.hiddenNames : Ty → Str
  | .record 0 => c!"struct B"
  | .record 1 => c!"struct D<int>"
  | .basic _ => c!"int"
  | _ => c!"other"

/-- `int x` of the class with the name. -/
def Ex.fieldX (cls : Str) : Field := ⟨c!"x", cls ++ c!"::x", .basic 0, .pub, false⟩

/-- `struct B { int x; }; template<typename T> struct D : B { int x; };` and `D<int>`, with `+namespace` for all. -/
def Ex.hidden : TransUnit :=
  { env := withClasses { exampleEnv with tyName := Ex.hiddenNames, cfg := { namespacesToBind := [c!""] }, baseRank := _root_.id }
      [{ exampleRecord with name := c!"B", qname := c!"B", members := [.field (Ex.fieldX c!"B")] },
       { exampleRecord with
           name := c!"D", qname := c!"D", targs := some [⟨c!"int", .type (.basic 0)⟩], hasInstantiationPoint := true
           bases := [⟨.pub, false, some 0⟩], members := [.field (Ex.fieldX c!"D")] }]
    visits := [.cls 0, .cls 1], inSystem := fun _ => false, depth := 20 }

theorem Ex.hidden_listed {i j : Nat} (h : ListedBase Ex.hidden.E i j) : i = 1 ∧ j = 0 := by
  have h' := (mem_boundBases _ _ _).2 h
  match i with
  | 0 => rw [show boundBases Ex.hidden.E (Ex.hidden.E.cls 0) = [] by decide +kernel] at h'; cases h'
  | 1 =>
    rw [show boundBases Ex.hidden.E (Ex.hidden.E.cls 1) = [0] by decide +kernel] at h'
    simp only [List.mem_cons, List.not_mem_nil, or_false] at h'
    omega
  | n + 2 => rw [show boundBases Ex.hidden.E (Ex.hidden.E.cls (n + 2)) = [] from rfl] at h'; cases h'

theorem Ex.hidden_nested (i : Nat) : nestedBound Ex.hidden.E (Ex.hidden.E.cls i) = [] := by
  match i with
  | 0 | 1 => rfl
  | n + 2 => rfl

theorem Ex.hidden_named (i : Nat) : (Ex.hidden.E.cls i).isAnonymous = false := by
  match i with
  | 0 | 1 => rfl
  | n + 2 => rfl

theorem Ex.hidden_imports : ∃ o fs' srcs pairs p, Ex.hidden.Ends o Ex.fsEmpty (.done fs') ∧ Generated Ex.hidden o Ex.fsEmpty fs' srcs ∧
    importModule pairs (importOps Ex.hidden.E srcs) = some p := by
  obtain ⟨fs', h, _⟩ : ∃ fs', Ex.hidden.Ends { Ex.opts 1000 with single := true } Ex.fsEmpty (.done fs') ∧ (fun _ => true) fs' = true :=
    Ex.ends_after (n := 20) (by decide +kernel)
  have hreg : ∀ i a j b k, registers Ex.hidden.E (.cls i) = a ++ j :: b → j ≠ i → ListedBase Ex.hidden.E j k → k ∈ a := by
    intro i a j b k h hj _
    have hm : j ∈ registers Ex.hidden.E (.cls i) := by rw [h]; simp
    rcases registersF_cases hm with rfl | ⟨k', hk⟩
    · exact absurd rfl hj
    · rw [Ex.hidden_nested] at hk; cases hk
  have hvis : ∀ v, Reached Ex.hidden v → v ∈ Ex.hidden.visits := fun v hv => (considered_offered hv.considered).1
  have hns : ∀ v ∈ Ex.hidden.visits, namespaceOf Ex.hidden.E v = [] := by decide +kernel
  have hl : ∀ {i j}, ListedBase Ex.hidden.E i j → j < 2 ∧ i < 2 := by
    intro i j h
    have := Ex.hidden_listed h
    omega
  have hplain : BasesPlain Ex.hidden := by
    constructor
    · intro i j k h hk
      have hj := (hl h).1
      have key : ∀ j < 2, ∀ k < 2, classQualifiedName Ex.hidden.E (Ex.hidden.E.cls k) = classQualifiedName Ex.hidden.E (Ex.hidden.E.cls j) ∨
          typeNameOfRecord Ex.hidden.E k = typeNameOfRecord Ex.hidden.E j → k = j := by decide +kernel
      refine key j hj k ?_
      have := (considered_offered hk).1
      simp only [Ex.hidden, List.mem_cons, Visit.cls.injEq, List.not_mem_nil, or_false] at this
      omega
    · intro i j k h
      have hj := (hl h).1
      have : typeNameOfEnum Ex.hidden.E k = typeNameOfEnum Ex.hidden.E 0 := by
        unfold typeNameOfEnum stdTy
        have h1 : Ex.hidden.E.tyName (.enum k) = Ex.hidden.E.tyName (.enum 0) := rfl
        have h2 : Ex.hidden.E.tyName (Ty.enum k).canon = Ex.hidden.E.tyName (Ty.enum 0).canon := rfl
        rw [h1, h2]
      rw [this]
      have key : ∀ j < 2, typeNameOfEnum Ex.hidden.E 0 ≠ typeNameOfRecord Ex.hidden.E j := by decide +kernel
      exact key j hj
    · intro i j h
      rcases Ex.hidden_listed h with ⟨rfl, rfl⟩ <;> exact ⟨rfl, .inl rfl⟩
    · intro i j h; rcases Ex.hidden_listed h with ⟨rfl, rfl⟩ <;> decide +kernel
    · intro i j _; rfl
  have hanon := Ex.hidden_named
  have hcomp : Compatible (fun op => ∃ v, Reached Ex.hidden v ∧ op ∈ opsOf Ex.hidden.E v) (HasModule Ex.hidden) (fun q => if q = c!"D<int>" then [c!"D<int>", c!"B"] else [q]) := by
    refine compatible_of_list (ops := Ex.hidden.visits.flatMap (opsOf Ex.hidden.E)) (pairs := [c!""].map fun n => ([], n)) ?_ ?_ (by decide +kernel)
    · rintro op ⟨v, hv, hop⟩
      exact List.mem_flatMap.2 ⟨v, hvis v hv, hop⟩
    · intro x hx
      exact hasModule_single (fun v hv => by rw [hns v (hvis v hv)]; simp) (by decide) hx
  have hone : OneDefinition Ex.hidden := by
    constructor
    · intro v hv
      have : ∀ v ∈ Ex.hidden.visits, ((opsOf Ex.hidden.E v).filterMap Op.type?).Nodup := by decide +kernel
      exact this v (hvis v hv)
    · intro v w q hv hw
      have : ∀ v ∈ Ex.hidden.visits, ∀ w ∈ Ex.hidden.visits, ∀ q ∈ (opsOf Ex.hidden.E v).filterMap Op.type?,
          q ∈ (opsOf Ex.hidden.E w).filterMap Op.type? → v = w := by decide +kernel
      exact this v (hvis v hv) w (hvis w hw) q
  obtain ⟨srcs, pairs, root, hg, _, _, p, hp⟩ := C81_import_partial Ex.hidden _ Ex.fsEmpty fs' Ex.fsEmpty_wf (by decide) (.inl rfl)
    (wellfounded_of_ranked (by decide)) h hplain hreg hone
    ⟨fun i j hj => (by rw [Ex.hidden_nested] at hj; cases hj), fun i j hj => (by rw [Ex.hidden_nested] at hj; cases hj)⟩
    (fun i _ => hanon i) (fun v hv h => by rw [hns v (hvis v hv)] at h; revert h; decide) _ hcomp
  exact ⟨_, fs', srcs, pairs, p, h, hg, hp⟩

theorem Ex.hidden_hasClass : ∀ i, i = 0 ∨ i = 1 → HasClass Ex.hidden i := by
  intro i hi
  have hr : Reached Ex.hidden (.cls i) := by
    rcases hi with rfl | rfl
    all_goals
      refine Ex.asked (by decide +kernel) True.intro (by decide +kernel) ?_ rfl (by decide +kernel)
      unfold Converted; decide +kernel
  refine ⟨⟨.cls i, hr, rfl, ?_⟩, rfl⟩
  rcases hi with rfl | rfl <;> decide +kernel

/-- A case of `C97_field_partial`: the attribute `x` of `B` is the field `x` of `B`. -/
example : ∃ o fs' srcs pairs p, Ex.hidden.Ends o Ex.fsEmpty (.done fs') ∧ Generated Ex.hidden o Ex.fsEmpty fs' srcs ∧
    importModule pairs (importOps Ex.hidden.E srcs) = some p ∧ p.own (.type c!"B") c!"x" = some .object ∧
    slotOf Ex.hidden.E srcs c!"B" c!"x" = some ⟨0, Ex.fieldX c!"B"⟩ := by
  obtain ⟨o, fs', srcs, pairs, p, h1, h2, h3⟩ := Ex.hidden_imports
  refine ⟨o, fs', srcs, pairs, p, h1, h2, h3, ?_⟩
  have h := C97_field_partial Ex.hidden (wellfounded_of_ranked (by decide)) o _ fs' srcs h2 pairs p h3 0 (Ex.hidden_hasClass 0 (.inl rfl)) c!"B" (by decide +kernel)
    (Ex.fieldX c!"B") (.inl ⟨rfl, .head _⟩) (by decide +kernel) (by decide +kernel) ?_ ?_ ?_ ?_
  · exact ⟨h.1, h.2.1⟩
  · rintro g (⟨_, hg⟩ | ⟨ts, hg, _⟩) _
    · rw [show (Ex.hidden.E.cls 0).members = [.field (Ex.fieldX c!"B")] from rfl, List.mem_singleton, Member.field.injEq] at hg
      exact hg
    · rw [show (Ex.hidden.E.cls 0).members = [.field (Ex.fieldX c!"B")] from rfl, List.mem_singleton] at hg
      cases hg
  · intro k g hk
    cases hk with
    | one ht => cases ht
    | more ht => cases ht
  · intro k _ g ha
    rw [Ex.hidden_named] at ha
    cases ha
  · rintro op kind ⟨v, hv, _, hop⟩ hb
    have : ∀ v ∈ Ex.hidden.visits, ∀ op ∈ opsOf Ex.hidden.E v, ∀ x ∈ op.binds, x.1 = (.type c!"B", c!"x") → op = .property (.type c!"B") c!"x" := by
      decide +kernel
    exact this v (considered_offered hv.considered).1 op hop _ hb rfl

theorem flatMap_one {α β : Type} {f : α → List β} {a : α} : ∀ {l : List α}, l.Nodup → a ∈ l → (∀ x ∈ l, x ≠ a → f x = []) → l.flatMap f = f a := by
  intro l
  induction l with
  | nil => intro _ h; cases h
  | cons b l ih =>
    intro hn hm h
    rw [List.nodup_cons] at hn
    rw [List.flatMap_cons]
    rcases List.mem_cons.1 hm with e | hm
    · have : l.flatMap f = [] := by
        rw [List.flatMap_eq_nil_iff]
        intro x hx
        refine h x (List.mem_cons_of_mem _ hx) ?_
        rintro rfl
        exact hn.1 (e ▸ hx)
      rw [this, e, List.append_nil]
    · rw [ih hn.2 hm fun x hx => h x (List.mem_cons_of_mem _ hx), h b List.mem_cons_self, List.nil_append]
      rintro rfl
      exact hn.1 hm

/-- C97 fails for classes made from templates: `D<int>` declares `x`, which hides the `x` of `B` in C++; both are bound as properties of the Python
class, that of `B` last, so the attribute `x` of a `D<int>` is the field of `B`. -/
theorem C97_hidden_false : ∃ o fs' srcs pairs p, Ex.hidden.Ends o Ex.fsEmpty (.done fs') ∧ Generated Ex.hidden o Ex.fsEmpty fs' srcs ∧
    importModule pairs (importOps Ex.hidden.E srcs) = some p ∧ HasClass Ex.hidden 1 ∧ classQualifiedName Ex.hidden.E (Ex.hidden.E.cls 1) = c!"D<int>" ∧
    PublicField (Ex.hidden.E.cls 1) (Ex.fieldX c!"D") ∧ PublicField (Ex.hidden.E.cls 0) (Ex.fieldX c!"B") ∧
    Finds Ex.hidden.E (fun i => ∃ f, PublicField (Ex.hidden.E.cls i) f ∧ f.name = c!"x") 1 1 ∧
    p.owner c!"D<int>" c!"x" = some c!"D<int>" ∧ slotOf Ex.hidden.E srcs c!"D<int>" c!"x" = some ⟨0, Ex.fieldX c!"B"⟩ := by
  obtain ⟨o, fs', srcs, pairs, p, h1, h2, h3⟩ := Ex.hidden_imports
  have hq : classQualifiedName Ex.hidden.E (Ex.hidden.E.cls 1) = c!"D<int>" := by decide +kernel
  have hr : Reached Ex.hidden (.cls 1) := by
    refine Ex.asked (by decide +kernel) True.intro (by decide +kernel) ?_ rfl (by decide +kernel)
    unfold Converted; decide +kernel
  refine ⟨o, fs', srcs, pairs, p, h1, h2, h3, Ex.hidden_hasClass 1 (.inr rfl), hq, ⟨rfl, .head _⟩, ⟨rfl, .head _⟩,
    ⟨.refl, ⟨_, ⟨rfl, .head _⟩, rfl⟩, fun j hj _ => hj⟩, ?_, ?_⟩
  · refine (C96_hides Ex.hidden o _ fs' srcs h2 pairs p h3 c!"D<int>" c!"D<int>" c!"x" (.refl _) ?_ fun r hr _ => hr).1
    exact (C84_names Ex.hidden o _ fs' srcs h2 pairs p h3 _ c!"x").1.2 (.inl ⟨.property (.type c!"D<int>") c!"x", .object,
      ⟨.cls 1, hr, rfl, by decide +kernel⟩, List.mem_singleton.2 rfl⟩)
  · have hin : Visit.cls 1 ∈ srcs.flatMap Source.bound := (h2.exactly _).2 ⟨hr, rfl⟩
    unfold slotOf slotsIn
    rw [List.filter_flatMap, flatMap_one h2.once hin]
    · rfl
    · intro v hv hne
      have := (considered_offered ((h2.exactly v).1 hv).1.considered).1
      simp only [Ex.hidden, List.mem_cons, List.not_mem_nil, or_false] at this
      rcases this with rfl | rfl
      · rfl
      · exact absurd rfl hne

end Binder
