import Verif.Spec.Operators
import Verif.Props.CallRun
import Verif.Props.Lookup

/-!
# C100: operators in Python
-/

namespace Binder

open Cxx Spec

theorem table_special {sym m : Str} {n : Nat} (h : (sym, m) ∈ unaryMethods ∧ n = 0 ∨ (∃ r, (sym, m, r) ∈ binaryMethods ++ augmentedMethods) ∧ n = 1) :
    (c!"operator" ++ sym, n, m) ∈ specialMethod := by
  rcases h with ⟨h, rfl⟩ | ⟨⟨r, h⟩, rfl⟩
  · have : ∀ x ∈ unaryMethods, (c!"operator" ++ x.1, 0, x.2) ∈ specialMethod := by decide
    exact this _ h
  · have : ∀ x ∈ binaryMethods ++ augmentedMethods, (c!"operator" ++ x.1, 1, x.2.1) ∈ specialMethod := by decide
    exact this _ h

/-- No class has a reflected method. -/
theorem no_reflected {U : TransUnit} {o : Opts} {fs fs' : FS} {srcs : List Source} (hg : Generated U o fs fs' srcs) {pairs : List (Str × Str)} {p : Py}
    (h : importModule pairs (importOps U.E srcs) = some p) (hpl : OperatorsPlain U) {sym m r : Str} (hr : (sym, m, r) ∈ binaryMethods) (t : Str) :
    p.owner t r = none := by
  rw [Py.owner, List.find?_eq_none]
  intro q _ hs
  rcases (C84_names U o fs fs' srcs hg pairs p h (.type q) r).1.1 hs with ⟨op, kind, hm, hb⟩ | ⟨x, _, e, _⟩
  · exact hpl.reflected op _ r kind hm hb (List.mem_map.2 ⟨_, hr, rfl⟩)
  · cases e

/-- C100. The functions that an operator of Python reaches in a class: just the bound member operators of the class with the same symbol and the
same number of operands (any number, for calls). -/
theorem C100_functions (U : TransUnit) (hw : U.E.Wellfounded) (o : Opts) (fs fs' : FS) (srcs : List Source) (hg : Generated U o fs fs' srcs) (hpl : OperatorsPlain U)
    (pairs : List (Str × Str)) (p : Py) (h : importModule pairs (importOps U.E srcs) = some p) (k : Nat) (F : Func) (parent : Option Nat) (lam : Bool) (hk : HasClass U k) (hF : Item.method F parent lam ∈ classItems U.E k) (hop : F.isOperator = true) :
    let name := pythonFunctionName F
    name ∈ methodNames →
    p.own (.type (classQualifiedName U.E (U.E.cls k))) name = some (.func true) ∧
    ⟨F, parent, lam⟩ ∈ bindingsIn U.E srcs (.type (classQualifiedName U.E (U.E.cls k))) name ∧
    ∀ b ∈ bindingsIn U.E srcs (.type (classQualifiedName U.E (U.E.cls k))) name,
      b.F.isOperator = true ∧ b.F.name = F.name ∧ (b.F.params.length = F.params.length ∨ F.name = c!"operator()") ∧
      ∃ j, HasClass U j ∧ classQualifiedName U.E (U.E.cls j) = classQualifiedName U.E (U.E.cls k) ∧ Item.method b.F b.parent b.lam ∈ classItems U.E j := by
  intro name hname
  have hbound : ∀ i f parent lam, Item.method f parent lam ∈ classItems U.E i → f.isOperator = true → boundName U.E f = pythonFunctionName f := by
    intro i f parent lam hi ho
    simp [boundName, (hpl.legal i f parent lam hi ho).2.2]
  have hbind : ∀ i f parent lam, Item.method f parent lam ∈ classItems U.E i → functionBindable U.E f = true :=
    fun i f parent lam hi => ((C48_methods U.E hw i f).1 ⟨_, _, hi⟩).2.1
  have hmem := (C93_methods U o fs fs' srcs hg _ _ ⟨F, parent, lam⟩).2 k hk rfl hF (hbound k F parent lam hF hop)
  refine ⟨?_, hmem, ?_⟩
  · have hne : ∀ n ∈ methodNames, n ≠ c!"__init__" ∧ n ≠ c!"__str__" := by decide
    obtain ⟨m, _, ho, _, hi, _⟩ := C93_call_partial U hw o fs fs' srcs hg pairs p h (.type (classQualifiedName U.E (U.E.cls k))) name (hne _ hname).1 (hne _ hname).2
      (fun op hm hb => hpl.others op _ _ hm hb hname) (fun _ x _ e => by cases e.1) _ rfl (List.ne_nil_of_mem hmem)
    rw [ho, ← (hi _ hmem).1]
    have h1 := (hpl.legal k _ _ _ hF hop).2.2
    have h2 := hbind k _ _ _ hF
    have h3 : F.method.isNone = false := by
      cases h3 : F.method.isNone with
      | false => rfl
      | true => rw [functionBindable, hop, h3] at h2; simp at h2
    unfold Func.isStatic at h1
    unfold Func.isInstance
    cases hm : F.method with
    | none => rw [hm] at h3; cases h3
    | some m => rw [hm] at h1; simp only at h1; simp [h1]
  intro b hb
  obtain ⟨e, j, hj, hn⟩ := (C93_methods U o fs fs' srcs hg _ _ b).1 hb
  obtain ⟨eq, hc⟩ := hn (hpl.named j _ _ _ hj)
  have ho : b.F.isOperator = true := by
    cases ho : b.F.isOperator with
    | true => rfl
    | false => exact absurd (e ▸ hname) (hpl.methods j _ _ _ hj ho)
  rw [hbound j _ _ _ hj ho] at e
  obtain ⟨l1, l2, _⟩ := hpl.legal j _ _ _ hj ho
  obtain ⟨m1, m2, _⟩ := hpl.legal k _ _ _ hF hop
  obtain ⟨e1, e2⟩ := C40_distinct_partial U.E b.F F ho hop (hbind j _ _ _ hj) (hbind k _ _ _ hF) l1 m1 l2 m2 e
  exact ⟨ho, e1, e1 ▸ e2, j, hc, eq.symm, hj⟩

/-- C100, the part that holds. Let `x` be an object of class `i`, and let the member operator `F` be bound for class `k`, in which C++ finds the operator for `x`
(and Python knows the class and its bases). Then the expression of Python with the same symbol calls the method of this class (see `C100_functions`): `⊕x`, `x ⊕ y`,
`x ⊕= y`, `x[…]`, `x(…)`, and, if the class of `y` is not derived from that of `x`, `x == y` and `x != y`. -/
theorem C100_operators_partial (U : TransUnit) (o : Opts) (fs fs' : FS) (srcs : List Source) (hg : Generated U o fs fs' srcs) (hpl : OperatorsPlain U)
    (pairs : List (Str × Str)) (p : Py) (h : importModule pairs (importOps U.E srcs) = some p) (i k : Nat) (hwhole : WholeHierarchy U (ListedBase U.E) i)
    (F : Func) (hop : F.isOperator = true) (hk : Finds U.E (HasMember U (pythonFunctionName F)) i k) :
    let x := classQualifiedName U.E (U.E.cls i)
    let c := classQualifiedName U.E (U.E.cls k)
    (∀ sym m, (sym, m) ∈ unaryMethods → F.name = c!"operator" ++ sym → F.params.length = 0 → p.evalUnary m x = .calls c m) ∧
    (∀ sym m r, (sym, m, r) ∈ binaryMethods → F.name = c!"operator" ++ sym → F.params.length = 1 → ∀ y, p.evalBinary m r x y = .calls c m) ∧
    (∀ sym m base b r, (sym, m, base) ∈ augmentedMethods → (base, b, r) ∈ binaryMethods → F.name = c!"operator" ++ sym → F.params.length = 1 →
      ∀ y, p.evalAugmented m b r x y = .calls c m) ∧
    (∀ negated, F.name = (if negated then c!"operator!=" else c!"operator==") → F.params.length = 1 → ∀ y, ¬ (y ≠ x ∧ x ∈ p.order y) →
      p.evalEqual negated x y = .calls c (if negated then c!"__ne__" else c!"__eq__")) ∧
    (F.name = c!"operator[]" → F.params.length = 1 → p.evalUnary c!"__getitem__" x = .calls c c!"__getitem__") ∧
    (F.name = c!"operator()" → p.evalUnary c!"__call__" x = .calls c c!"__call__") := by
  intro x c
  have how := (C96_lookup_partial U o fs fs' srcs hg pairs p h i k _ hwhole hk).1
  have hname : ∀ op n py, (op, n, py) ∈ specialMethod → F.name = op → F.params.length = n → p.owner x py = some c := by
    intro op n py hs e1 e2
    rw [← how, C40_special F hop py (by rw [e1, e2]; exact List.mem_append_left _ hs)]
  refine ⟨?_, ?_, ?_, ?_, ?_, ?_⟩
  · intro sym m hm e1 e2
    rw [Py.evalUnary, hname _ _ m (table_special (.inl ⟨hm, rfl⟩)) e1 e2]
  · intro sym m r hm e1 e2 y
    have hr := no_reflected hg h hpl hm
    rw [Py.evalBinary, hr, hr, if_neg (by simp), hname _ _ m (table_special (.inr ⟨⟨r, List.mem_append_left _ hm⟩, rfl⟩)) e1 e2]
  · intro sym m base b r hm _ e1 e2 y
    rw [Py.evalAugmented, hname _ _ m (table_special (.inr ⟨⟨base, List.mem_append_right _ hm⟩, rfl⟩)) e1 e2]
  · intro negated e1 e2 y hy
    cases negated with
    | true =>
      have := hname _ 1 c!"__ne__" (by decide) e1 e2
      simp only [Py.evalEqual, if_neg hy, Py.compares, this, if_true, Option.some_or, Option.getD_some]
    | false =>
      have := hname _ 1 c!"__eq__" (by decide) e1 e2
      simp only [Py.evalEqual, if_neg hy, Py.compares, this, Bool.false_eq_true, if_false, Option.some_or, Option.getD_some]
  · intro e1 e2
    rw [Py.evalUnary, hname _ _ c!"__getitem__" (by decide) e1 e2]
  · intro e1
    rw [Py.evalUnary, ← C40_call F hop e1]
    rw [how]

/-- C100. Without a member operator: if no class of the operands has the method, then `⊕x`, `x ⊕ y`, `x[…]` and `x(…)` raise `TypeError`; but `x == y` and `x != y` are
accepted, and ask whether `x` and `y` are the same object. -/
theorem C100_without (U : TransUnit) (o : Opts) (fs fs' : FS) (srcs : List Source) (hg : Generated U o fs fs' srcs) (hpl : OperatorsPlain U)
    (pairs : List (Str × Str)) (p : Py) (h : importModule pairs (importOps U.E srcs) = some p) (x y : Str) :
    (∀ m, (∀ t, Derives U (ListedBase U.E) x t → ∀ op kind, Made U op → ((.type t, m), kind) ∉ op.binds) →
      p.evalUnary m x = .typeError ∧ ∀ sym r, (sym, m, r) ∈ binaryMethods → p.evalBinary m r x y = .typeError) ∧
    ((∀ t, Derives U (ListedBase U.E) x t ∨ Derives U (ListedBase U.E) y t → ∀ op kind, Made U op →
      ((.type t, c!"__eq__"), kind) ∉ op.binds ∧ ((.type t, c!"__ne__"), kind) ∉ op.binds) →
      p.evalEqual false x y = .sameObject ∧ p.evalEqual true x y = .opposite .sameObject) := by
  have none_ : ∀ q m, (∀ t, Derives U (ListedBase U.E) q t → ∀ op kind, Made U op → ((.type t, m), kind) ∉ op.binds) → p.owner q m = none := by
    intro q m hno
    rw [Py.owner, List.find?_eq_none]
    intro t ht hs
    rcases (C84_names U o fs fs' srcs hg pairs p h (.type t) m).1.1 hs with ⟨op, kind, hm, hb⟩ | ⟨z, _, e, _⟩
    · exact hno t (((C96_order U o fs fs' srcs hg pairs p h q).1 t).1 ht) op kind hm hb
    · cases e
  constructor
  · intro m hno
    have hx := none_ x m hno
    refine ⟨by rw [Py.evalUnary, hx], ?_⟩
    intro sym r hm
    have hr := no_reflected hg h hpl hm
    rw [Py.evalBinary, hr, hr, if_neg (by simp), hx]
    simp
  · intro hno
    have e1 := none_ x c!"__eq__" (fun t ht op kind hm => (hno t (.inl ht) op kind hm).1)
    have e2 := none_ x c!"__ne__" (fun t ht op kind hm => (hno t (.inl ht) op kind hm).2)
    have e3 := none_ y c!"__eq__" (fun t ht op kind hm => (hno t (.inr ht) op kind hm).1)
    have e4 := none_ y c!"__ne__" (fun t ht op kind hm => (hno t (.inr ht) op kind hm).2)
    constructor <;> simp [Py.evalEqual, Py.compares, e1, e2, e3, e4]

/-! ## Examples -/

/-- A member operator of the class with the number and the name. -/
def Ex.operator (i : Nat) (cls name : Str) (params : List Param) : Func :=
  { exampleMethod name true (.basic 0) params with
    qname := cls ++ c!"::" ++ name
    method := some { parent := i, access := .pub, kind := .ordinary, isStatic := false, isConst := false, isVirtual := false,
                     isPure := false, isFinal := false, isCopyAssign := false, exceptionSpec := 0 } }

/-- `int A::operator-()`, `int A::operator-(int n)`, `int A::operator==(A a)`, and `int B::operator==(A a)`. -/
def Ex.opNeg : Func := Ex.operator 0 c!"A" c!"operator-" []
def Ex.opSub : Func := Ex.operator 0 c!"A" c!"operator-" [⟨c!"n", .basic 0, false⟩]
def Ex.opEq : Func := Ex.operator 0 c!"A" c!"operator==" [⟨c!"a", .record 0, false⟩]
def Ex.opEqB : Func := Ex.operator 1 c!"B" c!"operator==" [⟨c!"a", .record 0, false⟩]

/-- `int operator==(C a, C b)`, and `int operator+(C a, C b)`, in no class. -/
def Ex.freeOp (name : Str) : Func := { exampleMethod name true (.basic 0) [⟨c!"a", .record 2, false⟩, ⟨c!"b", .record 2, false⟩] with qname := name, method := none }

/-- `struct A { int operator-(); int operator-(int n); int operator==(A a); }; struct B : A { int operator==(A a); }; struct C {};
int operator==(C a, C b); int operator+(C a, C b);` with `+namespace` for all. -/
def Ex.ops : TransUnit :=
  { env := withClasses { exampleEnv with tyName := Ex.fourNames, cfg := { namespacesToBind := [c!""] }, baseRank := _root_.id }
      [{ exampleRecord with members := [.method Ex.opNeg, .method Ex.opSub, .method Ex.opEq] },
       { exampleRecord with name := c!"B", qname := c!"B", bases := [⟨.pub, false, some 0⟩], members := [.method Ex.opEqB] },
       { exampleRecord with name := c!"C", qname := c!"C" }]
    visits := [.cls 0, .cls 1, .cls 2, .fn (Ex.freeOp c!"operator=="), .fn (Ex.freeOp c!"operator+")], inSystem := fun _ => false, depth := 20 }

theorem Ex.ops_listed {i j : Nat} (h : ListedBase Ex.ops.E i j) : i = 1 ∧ j = 0 := by
  have h' := (mem_boundBases _ _ _).2 h
  match i with
  | 0 => rw [show boundBases Ex.ops.E (Ex.ops.E.cls 0) = [] by decide +kernel] at h'; cases h'
  | 1 =>
    rw [show boundBases Ex.ops.E (Ex.ops.E.cls 1) = [0] by decide +kernel] at h'
    simp only [List.mem_cons, List.not_mem_nil, or_false] at h'
    omega
  | 2 => rw [show boundBases Ex.ops.E (Ex.ops.E.cls 2) = [] by decide +kernel] at h'; cases h'
  | n + 3 => rw [show boundBases Ex.ops.E (Ex.ops.E.cls (n + 3)) = [] from rfl] at h'; cases h'

theorem Ex.ops_nested (i : Nat) : nestedBound Ex.ops.E (Ex.ops.E.cls i) = [] := by
  match i with
  | 0 | 1 | 2 => rfl
  | n + 3 => rfl

theorem Ex.ops_named (i : Nat) : (Ex.ops.E.cls i).isAnonymous = false := by
  match i with
  | 0 | 1 | 2 => rfl
  | n + 3 => rfl

theorem Ex.ops_imports : ∃ o fs' srcs pairs p, Ex.ops.Ends o Ex.fsEmpty (.done fs') ∧ Generated Ex.ops o Ex.fsEmpty fs' srcs ∧
    importModule pairs (importOps Ex.ops.E srcs) = some p := by
  obtain ⟨fs', h, _⟩ : ∃ fs', Ex.ops.Ends { Ex.opts 1000 with single := true } Ex.fsEmpty (.done fs') ∧ (fun _ => true) fs' = true :=
    Ex.ends_after (n := 20) (by decide +kernel)
  have hreg : ∀ i a j b k, registers Ex.ops.E (.cls i) = a ++ j :: b → j ≠ i → ListedBase Ex.ops.E j k → k ∈ a := by
    intro i a j b k h hj _
    have hm : j ∈ registers Ex.ops.E (.cls i) := by rw [h]; simp
    rcases registersF_cases hm with rfl | ⟨k', hk⟩
    · exact absurd rfl hj
    · rw [Ex.ops_nested] at hk; cases hk
  have hvis : ∀ v, Reached Ex.ops v → v ∈ Ex.ops.visits := fun v hv => (considered_offered hv.considered).1
  have hns : ∀ v ∈ Ex.ops.visits, namespaceOf Ex.ops.E v = [] := by decide +kernel
  have hl : ∀ {i j}, ListedBase Ex.ops.E i j → j < 3 ∧ i < 3 := by
    intro i j h
    have := Ex.ops_listed h
    omega
  have hplain : BasesPlain Ex.ops := by
    constructor
    · intro i j k h hk
      have hj := (hl h).1
      have key : ∀ j < 3, ∀ k < 3, classQualifiedName Ex.ops.E (Ex.ops.E.cls k) = classQualifiedName Ex.ops.E (Ex.ops.E.cls j) ∨
          typeNameOfRecord Ex.ops.E k = typeNameOfRecord Ex.ops.E j → k = j := by decide +kernel
      refine key j hj k ?_
      have := (considered_offered hk).1
      simp only [Ex.ops, List.mem_cons, Visit.cls.injEq, reduceCtorEq, List.not_mem_nil, or_false] at this
      omega
    · intro i j k h
      have hj := (hl h).1
      have : typeNameOfEnum Ex.ops.E k = typeNameOfEnum Ex.ops.E 0 := by
        unfold typeNameOfEnum stdTy
        have h1 : Ex.ops.E.tyName (.enum k) = Ex.ops.E.tyName (.enum 0) := rfl
        have h2 : Ex.ops.E.tyName (Ty.enum k).canon = Ex.ops.E.tyName (Ty.enum 0).canon := rfl
        rw [h1, h2]
      rw [this]
      have key : ∀ j < 3, typeNameOfEnum Ex.ops.E 0 ≠ typeNameOfRecord Ex.ops.E j := by decide +kernel
      exact key j hj
    · intro i j h
      rcases Ex.ops_listed h with ⟨rfl, rfl⟩ <;> exact ⟨rfl, .inl rfl⟩
    · intro i j h; rcases Ex.ops_listed h with ⟨rfl, rfl⟩ <;> decide +kernel
    · intro i j _; rfl
  have hanon := Ex.ops_named
  have hcomp : Compatible (fun op => ∃ v, Reached Ex.ops v ∧ op ∈ opsOf Ex.ops.E v) (HasModule Ex.ops) (fun q => if q = c!"B" then [c!"B", c!"A"] else [q]) := by
    refine compatible_of_list (ops := Ex.ops.visits.flatMap (opsOf Ex.ops.E)) (pairs := [c!""].map fun n => ([], n)) ?_ ?_ (by decide +kernel)
    · rintro op ⟨v, hv, hop⟩
      exact List.mem_flatMap.2 ⟨v, hvis v hv, hop⟩
    · intro x hx
      exact hasModule_single (fun v hv => by rw [hns v (hvis v hv)]; simp) (by decide) hx
  have hone : OneDefinition Ex.ops := by
    constructor
    · intro v hv
      have : ∀ v ∈ Ex.ops.visits, ((opsOf Ex.ops.E v).filterMap Op.type?).Nodup := by decide +kernel
      exact this v (hvis v hv)
    · intro v w q hv hw
      have : ∀ v ∈ Ex.ops.visits, ∀ w ∈ Ex.ops.visits, ∀ q ∈ (opsOf Ex.ops.E v).filterMap Op.type?,
          q ∈ (opsOf Ex.ops.E w).filterMap Op.type? → v = w := by decide +kernel
      exact this v (hvis v hv) w (hvis w hw) q
  obtain ⟨srcs, pairs, root, hg, _, _, p, hp⟩ := C81_import_partial Ex.ops _ Ex.fsEmpty fs' Ex.fsEmpty_wf (by decide) (.inl rfl)
    (wellfounded_of_ranked (by decide)) h hplain hreg hone
    ⟨fun i j hj => (by rw [Ex.ops_nested] at hj; cases hj), fun i j hj => (by rw [Ex.ops_nested] at hj; cases hj)⟩
    (fun i _ => hanon i) (fun v hv h => by rw [hns v (hvis v hv)] at h; revert h; decide) _ hcomp
  exact ⟨_, fs', srcs, pairs, p, h, hg, hp⟩

theorem Ex.ops_hasClass : ∀ i, i = 0 ∨ i = 1 ∨ i = 2 → HasClass Ex.ops i := by
  intro i hi
  have hr : Reached Ex.ops (.cls i) := by
    rcases hi with rfl | rfl | rfl
    all_goals
      refine Ex.asked (by decide +kernel) True.intro (by decide +kernel) ?_ rfl (by decide +kernel)
      unfold Converted; decide +kernel
  refine ⟨⟨.cls i, hr, rfl, ?_⟩, rfl⟩
  rcases hi with rfl | rfl | rfl <;> decide +kernel

theorem Ex.ops_reached (i : Nat) (hi : i = 0 ∨ i = 1 ∨ i = 2) : Reached Ex.ops (.cls i) := by
  rcases hi with rfl | rfl | rfl
  all_goals
    refine Ex.asked (by decide +kernel) True.intro (by decide +kernel) ?_ rfl (by decide +kernel)
    unfold Converted; decide +kernel

/-- The methods of the classes of the example program. -/
theorem Ex.ops_methods {i : Nat} {f : Func} {parent : Option Nat} {lam : Bool} (h : Item.method f parent lam ∈ classItems Ex.ops.E i) :
    f = Ex.opNeg ∨ f = Ex.opSub ∨ f = Ex.opEq ∨ f = Ex.opEqB := by
  match i with
  | 0 =>
    rw [show classItems Ex.ops.E 0 = [.implicitDefault, .method Ex.opNeg none false, .method Ex.opSub none false, .method Ex.opEq none false] from rfl] at h
    simp only [List.mem_cons, Item.method.injEq, reduceCtorEq, false_or, List.not_mem_nil, or_false] at h
    rcases h with ⟨h, _⟩ | ⟨h, _⟩ | ⟨h, _⟩ <;> simp [h]
  | 1 =>
    rw [show classItems Ex.ops.E 1 = [.implicitDefault, .method Ex.opEqB none false] from rfl] at h
    simp only [List.mem_cons, Item.method.injEq, reduceCtorEq, false_or, List.not_mem_nil, or_false] at h
    simp [h]
  | 2 => rw [show classItems Ex.ops.E 2 = [.implicitDefault] from rfl] at h; simp at h
  | n + 3 => rw [show classItems Ex.ops.E (n + 3) = [.implicitDefault] from rfl] at h; simp at h

theorem Ex.ops_plain : OperatorsPlain Ex.ops := by
  constructor
  · intro i f parent lam h _
    rcases Ex.ops_methods h with rfl | rfl | rfl | rfl <;> decide
  · intro i f parent lam h ho
    rcases Ex.ops_methods h with rfl | rfl | rfl | rfl <;> cases ho
  · rintro op s n ⟨v, hv, _, hop⟩ hb hn
    have : ∀ v ∈ Ex.ops.visits, ∀ op ∈ opsOf Ex.ops.E v, ∀ x ∈ op.binds, x.2 = .object → x.1.2 ∉ methodNames := by decide +kernel
    exact this v (considered_offered hv.considered).1 op hop _ hb rfl hn
  · rintro op s n kind ⟨v, hv, _, hop⟩ hb hn
    have : ∀ v ∈ Ex.ops.visits, ∀ op ∈ opsOf Ex.ops.E v, ∀ x ∈ op.binds, x.1.2 ∉ binaryMethods.map (·.2.2) := by decide +kernel
    exact this v (considered_offered hv.considered).1 op hop _ hb hn
  · intro i f parent lam _
    exact Ex.ops_named i

theorem Ex.ops_derives {q t : Str} (h : Derives Ex.ops (ListedBase Ex.ops.E) q t) : t = q ∨ q = c!"B" ∧ t = c!"A" := by
  have h0 : classQualifiedName Ex.ops.E (Ex.ops.E.cls 0) = c!"A" := by decide +kernel
  have h1 : classQualifiedName Ex.ops.E (Ex.ops.E.cls 1) = c!"B" := by decide +kernel
  induction h with
  | refl => exact .inl rfl
  | step _ hl _ ih =>
    obtain ⟨rfl, rfl⟩ := Ex.ops_listed hl
    rw [h0, h1] at *
    rcases ih with rfl | ⟨h, _⟩
    · exact .inr ⟨rfl, rfl⟩
    · exact absurd h (by decide)

/-- The operators of the classes, by their Python names. -/
def Ex.opsNames : List (Str × Str) := [(c!"A", c!"__neg__"), (c!"A", c!"__sub__"), (c!"A", c!"__eq__"), (c!"B", c!"__eq__")]

theorem Ex.ops_made {q n : Str} (h : (q, n) ∈ Ex.opsNames) :
    ∃ op kind, Made Ex.ops op ∧ ((.type q, n), kind) ∈ op.binds := by
  simp only [Ex.opsNames, List.mem_cons, Prod.mk.injEq, List.not_mem_nil, or_false] at h
  refine ⟨.function (.type q) n true, .func true, ?_, List.mem_singleton.2 rfl⟩
  rcases h with ⟨rfl, rfl⟩ | ⟨rfl, rfl⟩ | ⟨rfl, rfl⟩ | ⟨rfl, rfl⟩
  · exact ⟨.cls 0, Ex.ops_reached 0 (by omega), rfl, by decide +kernel⟩
  · exact ⟨.cls 0, Ex.ops_reached 0 (by omega), rfl, by decide +kernel⟩
  · exact ⟨.cls 0, Ex.ops_reached 0 (by omega), rfl, by decide +kernel⟩
  · exact ⟨.cls 1, Ex.ops_reached 1 (by omega), rfl, by decide +kernel⟩

theorem Ex.ops_binds {op : Op} {kind : Kind} {q n : Str} (h : Made Ex.ops op) (hn : n ∈ methodNames) (hb : ((.type q, n), kind) ∈ op.binds) :
    (q, n) ∈ Ex.opsNames := by
  obtain ⟨v, hv, _, hop⟩ := h
  have : ∀ v ∈ Ex.ops.visits, ∀ op ∈ opsOf Ex.ops.E v, ∀ x ∈ op.binds,
      (!decide (x.1.2 ∈ methodNames) || decide (x.1.1 = .module []) || Ex.opsNames.any fun y => decide (x.1 = (.type y.1, y.2))) = true := by decide +kernel
  have := this v (considered_offered hv.considered).1 op hop _ hb
  simp only [hn, decide_true, Bool.not_true, reduceCtorEq, decide_false, Bool.false_or, List.any_eq_true, decide_eq_true_eq] at this
  obtain ⟨y, hy, e⟩ := this
  cases e
  exact hy

theorem Ex.ops_inherits {i j : Nat} (h : Inherits Ex.ops.E anyBase i j) (hi : i < 3) : j = i ∨ i = 1 ∧ j = 0 := by
  cases h with
  | refl => exact .inl rfl
  | @step _ j' _ b hb _ hr h' =>
    match i, hi with
    | 0, _ => cases hb
    | 1, _ =>
      rcases List.mem_singleton.1 hb with rfl
      cases hr
      cases h' with
      | refl => exact .inr ⟨rfl, rfl⟩
      | step hb' => cases hb'
    | 2, _ => cases hb

theorem Ex.ops_whole (i : Nat) (hi : i < 3) : WholeHierarchy Ex.ops (ListedBase Ex.ops.E) i := by
  intro j hj
  have := Ex.ops_inherits hj hi
  refine ⟨Ex.ops_hasClass j (by omega), ?_⟩
  intro b hb k hk
  have key : ∀ j < 3, ∀ b ∈ (Ex.ops.E.cls j).bases, ∀ k ∈ b.record.toList, k ∈ boundBases Ex.ops.E (Ex.ops.E.cls j) := by decide +kernel
  exact (mem_boundBases _ _ _).1 (key j (by omega) b hb k (by rw [hk]; simp))

/-- Cases of `C100_operators_partial` and `C100_functions`: `-b` and `b - y` for a `B` call the methods of `A`, which are just the operator without and
with a parameter; `b == y` for a `y` of class `A` calls that of `B`. -/
example : ∃ o fs' srcs pairs p, Ex.ops.Ends o Ex.fsEmpty (.done fs') ∧ Generated Ex.ops o Ex.fsEmpty fs' srcs ∧
    importModule pairs (importOps Ex.ops.E srcs) = some p ∧
    p.evalUnary c!"__neg__" c!"B" = .calls c!"A" c!"__neg__" ∧ (∀ y, p.evalBinary c!"__sub__" c!"__rsub__" c!"B" y = .calls c!"A" c!"__sub__") ∧
    p.evalEqual false c!"B" c!"A" = .calls c!"B" c!"__eq__" ∧
    (∀ b, b ∈ bindingsIn Ex.ops.E srcs (.type c!"A") c!"__neg__" → b.F = Ex.opNeg) := by
  obtain ⟨o, fs', srcs, pairs, p, h1, h2, h3⟩ := Ex.ops_imports
  have h0 : classQualifiedName Ex.ops.E (Ex.ops.E.cls 0) = c!"A" := by decide +kernel
  have hB : classQualifiedName Ex.ops.E (Ex.ops.E.cls 1) = c!"B" := by decide +kernel
  have hba : Inherits Ex.ops.E anyBase 1 0 := .step (b := ⟨.pub, false, some 0⟩) (.head _) trivial rfl .refl
  have hfind : ∀ F, F = Ex.opNeg ∨ F = Ex.opSub → Finds Ex.ops.E (HasMember Ex.ops (pythonFunctionName F)) 1 0 := by
    intro F hF
    have hn : pythonFunctionName F ∈ methodNames ∧ (c!"A", pythonFunctionName F) ∈ Ex.opsNames ∧
        (c!"B", pythonFunctionName F) ∉ Ex.opsNames := by
      rcases hF with rfl | rfl <;> decide +kernel
    refine ⟨hba, ?_, ?_⟩
    · unfold HasMember; rw [h0]; exact Ex.ops_made hn.2.1
    · intro j hj hm
      rcases Ex.ops_inherits hj (by decide) with rfl | ⟨_, rfl⟩
      · obtain ⟨op, kind, hm, hb⟩ := hm
        rw [hB] at hb
        exact absurd (Ex.ops_binds hm hn.1 hb) hn.2.2
      · exact .refl
  have hfindB : Finds Ex.ops.E (HasMember Ex.ops (pythonFunctionName Ex.opEqB)) 1 1 := by
    refine ⟨.refl, ?_, fun j hj _ => hj⟩
    unfold HasMember; rw [hB]; exact Ex.ops_made (by decide +kernel)
  have r1 := C100_operators_partial Ex.ops o _ fs' srcs h2 Ex.ops_plain pairs p h3 1 0 (Ex.ops_whole 1 (by decide)) Ex.opNeg rfl (hfind _ (.inl rfl))
  have r2 := C100_operators_partial Ex.ops o _ fs' srcs h2 Ex.ops_plain pairs p h3 1 0 (Ex.ops_whole 1 (by decide)) Ex.opSub rfl (hfind _ (.inr rfl))
  have r3 := C100_operators_partial Ex.ops o _ fs' srcs h2 Ex.ops_plain pairs p h3 1 1 (Ex.ops_whole 1 (by decide)) Ex.opEqB rfl hfindB
  rw [h0, hB] at r1 r2
  rw [hB] at r3
  refine ⟨o, fs', srcs, pairs, p, h1, h2, h3, r1.1 c!"-" c!"__neg__" (by decide) rfl rfl, r2.2.1 c!"-" c!"__sub__" c!"__rsub__" (by decide) rfl rfl,
    r3.2.2.2.1 false rfl rfl c!"A" ?_, ?_⟩
  · rintro ⟨_, hm⟩
    rcases Ex.ops_derives (((C96_order Ex.ops o _ fs' srcs h2 pairs p h3 c!"A").1 c!"B").1 hm) with e | ⟨e, _⟩ <;> exact absurd e (by decide)
  · intro b hb
    have r := (C100_functions Ex.ops (wellfounded_of_ranked (by decide)) o _ fs' srcs h2 Ex.ops_plain pairs p h3 0 Ex.opNeg none false (Ex.ops_hasClass 0 (.inl rfl))
      (by rw [show classItems Ex.ops.E 0 = [.implicitDefault, .method Ex.opNeg none false, .method Ex.opSub none false, .method Ex.opEq none false] from rfl]; simp) rfl
      (by decide)).2.2 b (by rw [h0]; exact hb)
    obtain ⟨_, e1, e2, j, _, _, hj⟩ := r
    rcases e2 with e2 | e2
    · rcases Ex.ops_methods hj with e | e | e | e <;> rw [e] at e1 e2 ⊢
      · exact absurd e2 (by decide)
      · exact absurd e1 (by decide)
      · exact absurd e1 (by decide)
    · exact absurd e2 (by decide)

/-- C100 fails for operators in no class: they are never bound. In C++, `a == b` and `a + b` for `C`s call the operators of the program; in Python,
`a == b` asks whether they are the same object, and `a + b` raises `TypeError`. -/
theorem C100_free_false : ∃ o fs' srcs pairs p, Ex.ops.Ends o Ex.fsEmpty (.done fs') ∧ Generated Ex.ops o Ex.fsEmpty fs' srcs ∧
    importModule pairs (importOps Ex.ops.E srcs) = some p ∧ HasClass Ex.ops 2 ∧ classQualifiedName Ex.ops.E (Ex.ops.E.cls 2) = c!"C" ∧
    (∀ name, name = c!"operator==" ∨ name = c!"operator+" → Visit.fn (Ex.freeOp name) ∈ Ex.ops.visits ∧ (Ex.freeOp name).name = name ∧
      (Ex.freeOp name).params.map (·.ty) = [.record 2, .record 2]) ∧
    p.evalEqual false c!"C" c!"C" = .sameObject ∧ p.evalBinary c!"__add__" c!"__radd__" c!"C" c!"C" = .typeError := by
  obtain ⟨o, fs', srcs, pairs, p, h1, h2, h3⟩ := Ex.ops_imports
  have hno : ∀ t n, Derives Ex.ops (ListedBase Ex.ops.E) c!"C" t → n ∈ methodNames → ∀ op kind, Made Ex.ops op → ((.type t, n), kind) ∉ op.binds := by
    intro t n hd hn op kind hm hb
    rcases Ex.ops_derives hd with rfl | ⟨e, _⟩
    · have := Ex.ops_binds hm hn hb
      simp only [Ex.opsNames, List.mem_cons, Prod.mk.injEq, List.not_mem_nil, or_false] at this
      rcases this with ⟨e, _⟩ | ⟨e, _⟩ | ⟨e, _⟩ | ⟨e, _⟩ <;> exact absurd e (by decide)
    · exact absurd e (by decide)
  have r := C100_without Ex.ops o _ fs' srcs h2 Ex.ops_plain pairs p h3 c!"C" c!"C"
  refine ⟨o, fs', srcs, pairs, p, h1, h2, h3, Ex.ops_hasClass 2 (.inr (.inr rfl)), by decide +kernel, ?_, ?_, ?_⟩
  · rintro name (rfl | rfl)
    · exact ⟨by decide, rfl, rfl⟩
    · exact ⟨by decide, rfl, rfl⟩
  · refine (r.2 fun t ht op kind hm => ?_).1
    have ht' : Derives Ex.ops (ListedBase Ex.ops.E) c!"C" t := by cases ht <;> assumption
    exact ⟨hno t _ ht' (by decide) op kind hm, hno t _ ht' (by decide) op kind hm⟩
  · exact (r.1 c!"__add__" fun t ht => hno t _ ht (by decide)).2 c!"+" _ (by decide)

/-- C100 fails for `a == b` if the class of `b` is derived from that of `a` and has the operator too: C++ calls `A::operator==` for `a`; Python calls the
operator of `B` for `b`. -/
theorem C100_swapped_false : ∃ o fs' srcs pairs p, Ex.ops.Ends o Ex.fsEmpty (.done fs') ∧ Generated Ex.ops o Ex.fsEmpty fs' srcs ∧
    importModule pairs (importOps Ex.ops.E srcs) = some p ∧
    Member.method Ex.opEq ∈ (Ex.ops.E.cls 0).members ∧ Ex.opEq.name = c!"operator==" ∧ Ex.opEq.params.map (·.ty) = [.record 0] ∧
    p.evalEqual false c!"A" c!"B" = .callsRight c!"B" c!"__eq__" := by
  obtain ⟨o, fs', srcs, pairs, p, h1, h2, h3⟩ := Ex.ops_imports
  have hB : classQualifiedName Ex.ops.E (Ex.ops.E.cls 1) = c!"B" := by decide +kernel
  have h0 : classQualifiedName Ex.ops.E (Ex.ops.E.cls 0) = c!"A" := by decide +kernel
  refine ⟨o, fs', srcs, pairs, p, h1, h2, h3, by rw [show (Ex.ops.E.cls 0).members = [.method Ex.opNeg, .method Ex.opSub, .method Ex.opEq] from rfl]; simp, rfl, rfl, ?_⟩
  have hd : c!"A" ∈ p.order c!"B" := by
    refine ((C96_order Ex.ops o _ fs' srcs h2 pairs p h3 c!"B").1 c!"A").2 ?_
    rw [← h0, ← hB]
    exact .step (Ex.ops_hasClass 1 (.inr (.inl rfl))) ((mem_boundBases _ _ _).1 (by decide +kernel)) (.refl _)
  have how : p.owner c!"B" c!"__eq__" = some c!"B" := by
    have hfindB : Finds Ex.ops.E (HasMember Ex.ops c!"__eq__") 1 1 := by
      refine ⟨.refl, ?_, fun j hj _ => hj⟩
      unfold HasMember; rw [hB]; exact Ex.ops_made (by decide +kernel)
    have := (C96_lookup_partial Ex.ops o _ fs' srcs h2 pairs p h3 1 1 c!"__eq__" (Ex.ops_whole 1 (by decide)) hfindB).1
    rwa [hB] at this
  rw [Py.evalEqual, if_pos ⟨by decide, hd⟩]
  simp [Py.compares, how]

end Binder
