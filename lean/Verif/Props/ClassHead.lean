import Verif.Props.Constructor
import Verif.Lemmas.StripName

/-!
# C25, C48, C61 - C65: the class statement, fields, nested classes
-/

namespace Binder

open Cxx Spec

variable (E : Env)

/-! ## C64: nested classes -/

theorem mem_nestedBound (C : Record) (j : Nat) : j ∈ nestedBound E C ↔
    ∃ k ∈ E.nestedClasses C, (E.cls k).isFirstDecl = true ∧ E.nestedDefinition k = j ∧ classBindable E j = true := by
  simp only [nestedBound, List.mem_filter, List.mem_map]
  constructor
  · rintro ⟨⟨k, ⟨h1, h2⟩, rfl⟩, h3⟩; exact ⟨k, h1, h2, rfl, h3⟩
  · rintro ⟨k, h1, h2, rfl, h3⟩; exact ⟨⟨k, ⟨h1, h2⟩, rfl⟩, h3⟩

theorem bindClassTextF_stable (hw : E.Wellfounded) : ∀ n m i, E.nestRank i < n → E.nestRank i < m →
    bindClassTextF E n i = bindClassTextF E m i
  | 0, _, _, h, _ => absurd h (Nat.not_lt_zero _)
  | _, 0, _, _, h => absurd h (Nat.not_lt_zero _)
  | n + 1, m + 1, i, hn, hm => by
    have key : (nestedBound E (E.cls i)).map (bindClassTextF E n) = (nestedBound E (E.cls i)).map (bindClassTextF E m) := by
      apply List.map_congr_left
      intro j hj
      obtain ⟨k, hk, _, rfl, _⟩ := (mem_nestedBound E _ j).1 hj
      have := hw.nested i k hk
      exact bindClassTextF_stable hw n m _ (by omega) (by omega)
    simp only [bindClassTextF, key]

/-- The output of a class in terms of the output of its nested classes. -/
theorem classOutput_eq (hw : E.Wellfounded) (i : Nat) (hb : builtinDecl E (E.cls i).qname = false)
    (he : E.cfg.binders (stdName E (E.cls i).qname) = none) : classOutput E i =
    { code := indent (classHead E i ++ (classItems E i).flatMap (itemText E i) ++
        (if ((nestedBound E (E.cls i)).flatMap fun j => (classOutput E j).code ++ c!"\n").isEmpty then []
         else c!"\n" ++ (nestedBound E (E.cls i)).flatMap fun j => (classOutput E j).code ++ c!"\n") ++ c!"}\n") c!"\t"
      pre := (if trampoline E i then callbackText E i else []) ++ (nestedBound E (E.cls i)).flatMap fun j => (classOutput E j).pre
      requests := (if !(E.cls i).isAnonymous then boundBases E (E.cls i) else []).flatMap (fun j => tyRequests E (.record j)) ++
        (classItems E i).flatMap (itemRequests E) ++ (nestedBound E (E.cls i)).flatMap fun j => (classOutput E j).requests
      deps := if !(E.cls i).isAnonymous then boundBases E (E.cls i) else []
      prefixIncludes := (if trampoline E i then (overrides E i).map (·.method) else []) ++
        (classItems E i).filterMap (fun | .repr F => some F | _ => none) } := by
  have key : (nestedBound E (E.cls i)).map (bindClassTextF E (E.nestRank i)) = (nestedBound E (E.cls i)).map (classOutput E) := by
    apply List.map_congr_left
    intro j hj
    obtain ⟨k, hk, _, rfl, _⟩ := (mem_nestedBound E _ j).1 hj
    exact bindClassTextF_stable E hw _ _ _ (hw.nested i k hk) (Nat.lt_succ_self _)
  have h0 : ∀ l : Str, (if l.isEmpty = true then l else c!"\n" ++ l) = if l.isEmpty = true then [] else c!"\n" ++ l := by
    intro l; cases l <;> rfl
  rw [classOutput, bindClassTextF]
  simp only [hb, he, key, List.flatMap_map, h0]
  rfl

/-- The declarations of the nested classes of `i` are as C++ has them: each class has only one first declaration in `i`. -/
def OneFirstDecl (i : Nat) : Prop :=
  (((E.nestedClasses (E.cls i)).filter fun j => (E.cls j).isFirstDecl).map E.nestedDefinition).Nodup

/-- C64. Inside the block of a class that has no external binder, the public nested classes follow the members: each of them that can
be bound, in order of declaration, exactly once and with its complete binding. (Skip entries are not looked at,
`C48_nested_skip_false`.) -/
theorem C64_nested (hw : E.Wellfounded) (i : Nat) (hb : builtinDecl E (E.cls i).qname = false)
    (he : E.cfg.binders (stdName E (E.cls i).qname) = none) (h1 : OneFirstDecl E i) :
    ∃ inner : List Nat, inner.Nodup ∧
      (∀ j, j ∈ inner ↔ ∃ k ∈ E.nestedClasses (E.cls i), (E.cls k).isFirstDecl = true ∧ E.nestedDefinition k = j ∧ classBindable E j = true) ∧
      ∃ nested, (nested = [] ∧ (∀ j ∈ inner, (classOutput E j).code = []) ∧ inner = [] ∨
          nested = c!"\n" ++ (inner.map fun j => (classOutput E j).code ++ c!"\n").flatten) ∧
        (classOutput E i).code = indent (classHead E i ++ (classItems E i).flatMap (itemText E i) ++ nested ++ c!"}\n") c!"\t" := by
  refine ⟨nestedBound E (E.cls i), List.Nodup.sublist (List.filter_sublist) h1, mem_nestedBound E _, ?_⟩
  rw [classOutput_eq E hw i hb he]
  by_cases hn : nestedBound E (E.cls i) = []
  · refine ⟨[], .inl ⟨rfl, by simp [hn], hn⟩, ?_⟩
    simp [hn]
  · refine ⟨c!"\n" ++ ((nestedBound E (E.cls i)).map fun j => (classOutput E j).code ++ c!"\n").flatten, .inr rfl, ?_⟩
    simp only [List.flatMap_def]
    rw [if_neg]
    intro h
    rw [List.isEmpty_iff, List.flatten_eq_nil_iff] at h
    obtain ⟨j, hj⟩ := List.exists_mem_of_ne_nil _ hn
    have := h _ (List.mem_map_of_mem hj)
    simp at this

/-! ## C25: the text of a class is not empty -/

theorem indent_ne_nil {s token : Str} (h : s ≠ []) : indent s token ≠ [] := by
  rw [indent_eq_terminated]
  have hl := (isLines_split '\n' s).2
  cases hs : split s c!"\n" with
  | nil =>
    rw [hs] at hl
    simp only [terminated] at hl
    split at hl
    · exact absurd hl.symm h
    · exact absurd hl.symm (by simp)
  | cons l ls => simp [terminated]

/-- C25. Binding a class produces code, unless the class is one that pybind11 converts itself, so that `is_binded()` answers yes
afterwards. -/
theorem C25_class_text (i : Nat) (hb : builtinDecl E (E.cls i).qname = false) : (classOutput E i).code ≠ [] := by
  rw [classOutput, bindClassTextF]
  simp only [hb]
  cases he : E.cfg.binders (stdName E (E.cls i).qname) with
  | some b => simp [bindWithText]
  | none =>
    simp only [Bool.false_eq_true, if_false]
    apply indent_ne_nil
    simp

/-! ## C61: the class statement -/

/-- The class templates that pybind11 converts itself, and `std::enable_shared_from_this`: they are not named as bases. -/
def specialBase (name : Str) : Prop :=
  name ∈ [c!"std::enable_shared_from_this", c!"std::string", c!"std::basic_string", c!"std::pair", c!"std::tuple"]

/-- `j` is a public direct base of `i` that gets a binding of its own. -/
def ListedBase (i j : Nat) : Prop :=
  (∃ b ∈ (E.cls i).bases, b.access = .pub ∧ b.record = some j) ∧ ¬ specialBase (stdName E (E.cls j).qname) ∧
  classBindable E j = true ∧ skipClass E j = .ok false

theorem mem_boundBases (i j : Nat) : j ∈ boundBases E (E.cls i) ↔ ListedBase E i j := by
  simp only [boundBases, List.mem_filterMap, ListedBase, specialBase]
  constructor
  · rintro ⟨b, hb, h⟩
    split at h
    · rename_i ha
      split at h
      · rename_i k hk
        split at h
        · rename_i hc
          cases h
          simp only [Bool.and_eq_true, answer_not] at hc
          refine ⟨⟨b, hb, by simpa using ha, hk⟩, ?_, hc.1.2, hc.2⟩
          have := hc.1.1
          simpa using this
        · cases h
      · cases h
    · cases h
  · rintro ⟨⟨b, hb, ha, hk⟩, h1, h2, h3⟩
    refine ⟨b, hb, ?_⟩
    rw [if_pos (by simp [ha])]
    simp only [hk]
    rw [if_pos]
    simp only [Bool.and_eq_true, answer_not]
    refine ⟨⟨?_, h2⟩, h3⟩
    simpa using h1

theorem boundBases_sublist (C : Record) : (boundBases E C).Sublist (C.bases.filterMap (·.record)) := by
  unfold boundBases
  induction C.bases with
  | nil => simp
  | cons b bs ih =>
    simp only [List.filterMap_cons]
    cases hk : b.record with
    | none =>
      rw [show (if (b.access == .pub) = true then (none : Option Nat) else none) = none by split <;> rfl]
      exact ih
    | some k =>
      simp only
      split
      · exact ih.cons _
      · rename_i x hx
        split at hx
        · split at hx
          · cases hx; exact ih.cons_cons _
          · cases hx
        · cases hx

/-- The holder named in the `class_` statement. -/
def holderName (i : Nat) : Str := (holderText E i).drop 2

theorem holderName_eq (i : Nat) : holderText E i = c!", " ++ holderName E i := by
  have key : ∃ r, holderText E i = c!", " ++ r := by
    unfold holderText
    simp only [List.append_assoc]
    split
    · exact ⟨_, rfl⟩
    · split
      · split
        · exact ⟨_, rfl⟩
        · exact ⟨_, rfl⟩
      · exact ⟨_, rfl⟩
  obtain ⟨r, hr⟩ := key
  rw [holderName, hr]
  rfl

/-- The parts of the `class_` statement of class `i`. -/
def classDef (i : Nat) : ClassDef :=
  { name := classQualifiedName E (E.cls i), holder := holderName E i, callback := if trampoline E i then some (callbackName E i) else none
    bases := (boundBases E (E.cls i)).map fun j => classQualifiedName E (E.cls j)
    scope := if (E.cls i).outer.isSome then c!"enclosing_class" else c!"M(\"" ++ nsOf E (E.cls i).qname (E.cls i).name ++ c!"\")"
    pyName := pythonClassName E (E.cls i), doc := docString (E.cls i).comment
    extra := (if answer (moduleLocalRequested E.cfg (nsOf E (E.cls i).qname (E.cls i).name)) then [c!"pybind11::module_local()"] else []) ++
      (if bufferProtocolRequested E.cfg (stdName E (E.cls i).qname) then [c!"pybind11::buffer_protocol()"] else []) }

theorem intercalate_cons (x : Str) (l : List Str) : List.intercalate c!", " (x :: l) = x ++ l.flatMap fun y => c!", " ++ y := by
  induction l generalizing x with
  | nil => simp [List.intercalate]
  | cons y l ih =>
    have := ih y
    simp only [List.intercalate, List.intersperse_cons_cons, List.flatten_cons] at this ⊢
    rw [this]; simp

theorem classDef_text (i : Nat) : (classDef E i).text =
    c!"\tpybind11::class_<" ++ classQualifiedName E (E.cls i) ++ holderText E i ++ (if trampoline E i then c!", " ++ callbackName E i else []) ++
    (boundBases E (E.cls i)).flatMap (fun j => c!", " ++ classQualifiedName E (E.cls j)) ++ c!"> cl(" ++
    (if (E.cls i).outer.isSome then c!"enclosing_class" else moduleVariable (nsOf E (E.cls i).qname (E.cls i).name)) ++ c!", \"" ++
    pythonClassName E (E.cls i) ++ c!"\", \"" ++ docString (E.cls i).comment ++ c!"\"" ++
    (if answer (moduleLocalRequested E.cfg (nsOf E (E.cls i).qname (E.cls i).name)) then c!", pybind11::module_local()" else []) ++
    (if bufferProtocolRequested E.cfg (stdName E (E.cls i).qname) then c!", pybind11::buffer_protocol()" else []) ++ c!");\n" := by
  rw [holderName_eq]
  unfold classDef ClassDef.text moduleVariable
  generalize classQualifiedName E (E.cls i) = q
  generalize holderName E i = hn
  generalize trampoline E i = t
  generalize callbackName E i = cb
  generalize answer (moduleLocalRequested E.cfg (nsOf E (E.cls i).qname (E.cls i).name)) = ml
  generalize bufferProtocolRequested E.cfg (stdName E (E.cls i).qname) = bp
  generalize nsOf E (E.cls i).qname (E.cls i).name = ns
  generalize pythonClassName E (E.cls i) = pn
  generalize docString (E.cls i).comment = doc
  generalize boundBases E (E.cls i) = bs
  generalize (E.cls i).outer.isSome = o
  simp only [List.cons_append, List.nil_append, intercalate_cons]
  cases t <;> cases ml <;> cases bp <;> simp [List.flatMap_map]

theorem classDef_name (i : Nat) : (classDef E i).name = classQualifiedName E (E.cls i) := by simp only [classDef]

/-- What is written before the `class_` statement. -/
def beforeClass (i : Nat) : Str :=
  c!"{ " ++ commentFor E (E.cls i).qname (E.cls i).incl (E.cls i).line ++
    (if (E.cls i).outer.isSome then c!"\tauto & enclosing_class = cl;\n" else []) ++
    (if smartHolderRequested E.cfg (stdName E (E.cls i).qname) then
      c!"\tPYBIND11_TYPE_CASTER_BASE_HOLDER(" ++ classQualifiedName E (E.cls i) ++ c!" " ++ holderText E i ++ c!")\n" else [])

theorem classHead_eq (i : Nat) (hn : (E.cls i).isAnonymous = false) : classHead E i = beforeClass E i ++ (classDef E i).text := by
  have he : isEnclosed (E.cls i) = (E.cls i).outer.isSome := by simp [isEnclosed, Record.isMember, hn]
  rw [classDef_text]
  simp only [classHead, hn, classStatement, he, Bool.not_false, if_true, List.append_assoc, beforeClass]

/-- C61. The block of a class begins with one `class_` statement. It names the class, its holder type, its callback structure if there
is one, and exactly those public direct bases that get a binding of their own, in the order of declaration; it puts the class, under its
Python name, into the enclosing class or into the module of its namespace. -/
theorem C61_class_statement (i : Nat) (hn : (E.cls i).isAnonymous = false) :
    ∃ (before : Str) (d : ClassDef), classHead E i = before ++ d.text ∧
      d.name = classQualifiedName E (E.cls i) ∧
      (d.callback = if trampoline E i then some (callbackName E i) else none) ∧
      (∃ js : List Nat, (∀ j, j ∈ js ↔ ListedBase E i j) ∧ js.Sublist ((E.cls i).bases.filterMap (·.record)) ∧
        d.bases = js.map fun j => classQualifiedName E (E.cls j)) ∧
      d.scope = (if (E.cls i).outer.isSome then c!"enclosing_class" else c!"M(\"" ++ nsOf E (E.cls i).qname (E.cls i).name ++ c!"\")") ∧
      ((E.cls i).outer.isSome = true → c!"\tauto & enclosing_class = cl;\n" <:+: before) ∧
      d.pyName = pythonClassName E (E.cls i) ∧
      (c!"pybind11::module_local()" ∈ d.extra ↔ answer (moduleLocalRequested E.cfg (nsOf E (E.cls i).qname (E.cls i).name)) = true) ∧
      (c!"pybind11::buffer_protocol()" ∈ d.extra ↔ bufferProtocolRequested E.cfg (stdName E (E.cls i).qname) = true) := by
  refine ⟨beforeClass E i, classDef E i, classHead_eq E i hn, classDef_name E i, rfl, ⟨boundBases E (E.cls i), mem_boundBases E i, boundBases_sublist E _, rfl⟩, rfl,
    ?_, rfl, ?_, ?_⟩
  · intro ho
    rw [beforeClass, if_pos ho]
    exact ⟨_, _, rfl⟩
  · simp only [classDef, List.mem_append]
    constructor
    · rintro (h | h)
      · split at h
        · assumption
        · cases h
      · split at h
        · simp at h
        · cases h
    · intro h; left; rw [if_pos h]; simp
  · simp only [classDef, List.mem_append]
    constructor
    · rintro (h | h)
      · split at h
        · simp at h
        · cases h
      · split at h
        · assumption
        · cases h
    · intro h; right; rw [if_pos h]; simp

/-- C61. Every base named in the `class_` statement is requested, so that it is bound as well, and is a dependency of the class, so that
it is bound before the class (`C28_dependencies_first`). A class that is a base is complete, or a specialisation. -/
theorem C61_bases_requested (hw : E.Wellfounded) (i j : Nat) (hb : builtinDecl E (E.cls i).qname = false)
    (he : E.cfg.binders (stdName E (E.cls i).qname) = none) (hn : (E.cls i).isAnonymous = false) (h : ListedBase E i j)
    (hc : (E.cls j).isComplete = true ∨ (E.cls j).targs.isSome = true) :
    typeNameOfRecord E j ∈ (classOutput E i).requests ∧ j ∈ (classOutput E i).deps := by
  rw [classOutput_eq E hw i hb he]
  have hm := (mem_boundBases E i j).2 h
  have hs : skipTy E (.record j) = .ok false := h.2.2.2
  have hq : tyRequests E (.record j) = [typeNameOfRecord E j] := by
    have h1 : answer (skipTy E (.record j)) = false := by rw [hs]; rfl
    have h2 : ((E.cls j).isComplete || (E.cls j).isSpecialization) = true := by simpa [Record.isSpecialization] using hc
    simp only [tyRequests, tagRequest, Ty.head, h1, h2, if_true, Bool.false_eq_true, if_false]
  refine ⟨?_, by simp [hn, hm]⟩
  simp only [hn, Bool.not_false, if_true, List.mem_append, List.mem_flatMap]
  exact .inl (.inl ⟨j, hm, by rw [hq]; simp⟩)

/-! ## C62: fields -/

/-- C62 where it holds: if the type of a field is not hidden behind a typedef or a qualified name, the field is bound read-only exactly
if its value cannot be replaced. The statement names the field as a member of its class, or, for a field of an anonymous class or union, as a
member of the class around it. -/
theorem C62_readonly_partial (f : Field) (cls : Str) (h : f.ty.unqual = f.ty.head) :
    ∃ owner, dataMemberText E f cls = fieldText (open Classical in decide (ReadOnly E f)) f.name owner ∧
      (cls.getLast? ≠ some ')' → owner = cls) ∧
      ∀ c, c.getLast? ≠ some ')' → cls = c ++ c!"::(anonymous)" ∨ cls = c ++ "::(anonymous union)".toList → owner = c := by
  have hro : ReadOnly E f ↔ (f.ty.isConst || !fieldAssignable E f) = true := by
    simp only [ReadOnly, Bool.or_eq_true, Bool.not_eq_true']
    refine or_congr Iff.rfl ?_
    unfold fieldAssignable fieldClass
    rw [← h]
    generalize f.ty.unqual = ty
    split
    · rename_i j
      simp only [Option.some.injEq, Bool.not_eq_false', List.any_eq_true, mem_methods]
      constructor
      · rintro ⟨_, rfl, g, m, hg, hm, hc, hd⟩
        refine ⟨g, hg, ?_⟩
        simp only [hm, hc, Bool.true_and, Bool.or_eq_true, bne_iff_ne, Func.access]
        exact hd
      · rintro ⟨g, hg, hc⟩
        refine ⟨j, rfl, g, ?_⟩
        cases hm : g.method with
        | none => simp [hm] at hc
        | some m =>
          simp only [hm, Func.access, Bool.and_eq_true, Bool.or_eq_true, bne_iff_ne] at hc
          exact ⟨m, hg, rfl, hc.1, hc.2⟩
    · simp
  refine ⟨stripAnonymous cls, ?_, stripAnonymous_named, ?_⟩
  rotate_left
  · rintro c hc (rfl | rfl)
    · exact stripAnonymous_anonymous hc
    · exact stripAnonymous_union hc
  simp only [dataMemberText, fieldText]
  by_cases hr : ReadOnly E f
  · rw [if_pos (hro.1 hr)]; simp [hr]
  · rw [if_neg (fun e => hr (hro.2 e))]; simp [hr]

/-- C62 fails for a field `ns::B b` (or a field declared with a typedef) if the copy assignment of `B` is deleted: it is bound with
`def_readwrite`, which does not compile. -/
theorem C62_sugar_false : ∃ (E : Env) (f : Field), ReadOnly E f ∧ fieldBindable E f = true ∧
    dataMemberText E f c!"A" = ".def_readwrite(\"b\", &A::b)".toList := by
  let assign : Func := { exampleMethod c!"operator=" true (.lref (.record 0)) [⟨c!"o", .lref (.const (.record 0)), false⟩] with
    isDeleted := true
    method := some { parent := 0, access := .pub, kind := .ordinary, isStatic := false, isConst := false, isVirtual := false,
                     isPure := false, isFinal := false, isCopyAssign := true, exceptionSpec := 0 } }
  refine ⟨classWith [.method assign], ⟨c!"b", c!"A::b", .sugar 1 (.record 0), .pub, false⟩, ?_, by decide +kernel, by decide +kernel⟩
  exact .inr ⟨0, rfl, assign, _, List.mem_cons_self, rfl, rfl, .inr rfl⟩

/-! ## C65: the holder -/

/-- The class is, or inherits in any way from, `std::enable_shared_from_this`. -/
inductive FromShared : Nat → Prop where
  | self {i} : (E.cls i).qname = c!"std::enable_shared_from_this" → FromShared i
  | base {i j b} : (E.cls i).isComplete = true → b ∈ (E.cls i).bases → b.record = some j → FromShared j → FromShared i

theorem fromShared_of {n i : Nat} (h : sharedFromThisF E n i = true) : FromShared E i := by
  induction n generalizing i with
  | zero => cases h
  | succ n ih =>
    rw [sharedFromThisF, Bool.or_eq_true, Bool.and_eq_true, List.any_eq_true, beq_iff_eq] at h
    rcases h with h | ⟨hc, b, hb, h⟩
    · exact .self h
    · cases hr : b.record with
      | none => rw [hr] at h; cases h
      | some j => rw [hr] at h; exact .base hc hb hr (ih h)

theorem of_fromShared (hw : E.Wellfounded) {i : Nat} (h : FromShared E i) : ∀ n, E.baseRank i < n → sharedFromThisF E n i = true := by
  induction h with
  | self h =>
    intro n hn
    cases n with
    | zero => omega
    | succ n => rw [sharedFromThisF, h]; rfl
  | @base i j b hc hb hr _ ih =>
    intro n hn
    cases n with
    | zero => omega
    | succ n =>
      have := hw.bases i b hb j hr
      rw [sharedFromThisF, Bool.or_eq_true, Bool.and_eq_true, List.any_eq_true]
      exact .inr ⟨hc, b, hb, by rw [hr]; exact ih n (by omega)⟩

theorem sharedFromThis_iff (hw : E.Wellfounded) (i : Nat) : sharedFromThis E i = true ↔ FromShared E i :=
  ⟨fromShared_of E, fun h => of_fromShared E hw h _ (Nat.lt_succ_self _)⟩

/-- C65 where it holds: unless the class inherits from `std::enable_shared_from_this`, Python owns its objects, through the configured
holder type, exactly if the destructor is public; otherwise the holder is a plain pointer. -/
theorem C65_holder_partial (hw : E.Wellfounded) (i : Nat) (hn : (E.cls i).isAnonymous = false) (h : ¬ FromShared E i) :
    ∃ (before : Str) (d : ClassDef), classHead E i = before ++ d.text ∧ d.name = classQualifiedName E (E.cls i) ∧
      d.holder = if (E.cls i).dtorAccess = none ∨ (E.cls i).dtorAccess = some .pub
        then E.cfg.holderType ++ c!"<" ++ classQualifiedName E (E.cls i) ++ c!">" else classQualifiedName E (E.cls i) ++ c!"*" := by
  have h : sharedFromThis E i = false := by
    cases hs : sharedFromThis E i with
    | false => rfl
    | true => exact absurd ((sharedFromThis_iff E hw i).1 hs) h
  refine ⟨beforeClass E i, classDef E i, classHead_eq E i hn, classDef_name E i, ?_⟩
  show holderName E i = _
  unfold holderName holderText
  cases hd : (E.cls i).dtorAccess with
  | none => simp [h]
  | some a => cases a <;> simp [h]

/-- C65. A class that inherits from `std::enable_shared_from_this`, directly or not, is always held by the configured holder type, so that
objects that C++ shares stay shared. -/
theorem C65_shared_holder (hw : E.Wellfounded) (i : Nat) (hn : (E.cls i).isAnonymous = false) (h : FromShared E i) :
    ∃ (before : Str) (d : ClassDef), classHead E i = before ++ d.text ∧ d.name = classQualifiedName E (E.cls i) ∧
      d.holder = E.cfg.holderType ++ c!"<" ++ classQualifiedName E (E.cls i) ++ c!">" := by
  refine ⟨beforeClass E i, classDef E i, classHead_eq E i hn, classDef_name E i, ?_⟩
  show holderName E i = _
  unfold holderName holderText
  simp [(sharedFromThis_iff E hw i).2 h]

/-- C65 fails for a class that inherits from `std::enable_shared_from_this` and has a protected destructor: Python owns its objects, and
the generated code, which calls the destructor, does not compile. -/
theorem C65_shared_false : ∃ (E : Env) (i : Nat), E.Wellfounded ∧ (E.cls i).dtorAccess = some .prot ∧
    holderText E i = ", std::shared_ptr<A>".toList := by
  refine ⟨hierarchy [{ exampleClass c!"A" false [publicBase 1] [] with dtorAccess := some .prot },
    { exampleClass c!"enable_shared_from_this" false [] [] with qname := "std::enable_shared_from_this".toList }], 0,
    hierarchy_wellfounded _ (by simp [exampleClass, exampleRecord]) (by simp [exampleClass]) ?_, rfl, by decide +kernel⟩
  intro i h b hb j hj
  match i, h with
  | 0, _ => simp [exampleClass, publicBase] at hb; subst hb; cases hj; simp
  | 1, _ => simp [exampleClass] at hb

/-- `struct A : B {}; struct B : std::enable_shared_from_this<B> {};`: the hypotheses of `C65_shared_holder` and `C65_holder_partial` are met. -/
example : FromShared (hierarchy [exampleClass c!"A" false [publicBase 1] [], exampleClass c!"B" false [publicBase 2] [],
    { exampleClass c!"enable_shared_from_this" false [] [] with qname := c!"std::enable_shared_from_this" }]) 0 ∧ ¬ FromShared exampleEnv 0 := by
  refine ⟨.base rfl List.mem_cons_self rfl (.base rfl List.mem_cons_self rfl (.self rfl)), ?_⟩
  intro h
  cases h with
  | self h => revert h; decide
  | base _ hb => cases hb

/-! ## C63: `__str__` -/

/-- A free function that prints as `std::ostream & (std::ostream &, const class Q &)`, where `Q` is the name of the class. -/
def PrintsClass (F : Func) (C : Record) : Prop :=
  F.method = none ∧ stdTy E F.ret = c!"std::ostream &" ∧
  F.params.map (fun p => stdTy E p.ty) =
    [c!"std::ostream &", c!"const " ++ (if C.isStruct then c!"struct " else c!"class ") ++ classQualifiedName E C ++ c!" &"]

theorem insertionOperator_mem {key : Str} {F : Func} (h : insertionOperator E key = some F) : F ∈ E.insertions ∧ functionPointerType E F = key := by
  unfold insertionOperator at h
  exact ⟨List.mem_reverse.1 (List.mem_of_find?_eq_some h), by simpa using List.find?_some h⟩

theorem insertionOperator_isSome {key : Str} {F : Func} (h : F ∈ E.insertions) (hk : functionPointerType E F = key) :
    ∃ G, insertionOperator E key = some G := by
  unfold insertionOperator
  rw [← Option.isSome_iff_exists, List.find?_isSome]
  exact ⟨F, by simpa using h, by simpa using hk⟩

theorem printsClass_key {F : Func} {C : Record} (h : PrintsClass E F C) : functionPointerType E F =
    "std::ostream & (*)(std::ostream &, const ".toList ++ (if C.isStruct then c!"struct " else c!"class ") ++ classQualifiedName E C ++ c!" &)" := by
  obtain ⟨h1, h2, h3⟩ := h
  rw [functionPointerType_eq, functionArguments_eq, h3, h2, listText_two, pointerClass, h1, maybeConst, Func.isConst, h1]
  have e : "std::ostream & (*)(std::ostream &, const ".toList = c!"std::ostream &" ++ c!" (" ++ c!"*)(" ++ c!"std::ostream &" ++ c!", " ++ c!"const " := by
    decide
  rw [e]
  simp only [List.append_assoc, List.nil_append, Bool.false_eq_true, if_false, List.append_nil]
  rfl

/-- The user asked for no `__str__`. -/
def StrSkipped (i : Nat) : Prop :=
  functionSkippingRequested E.cfg (classQualifiedName E (E.cls i) ++ c!"::__str__") = true ∨
  functionSkippingRequested E.cfg (stdName E ((E.cls i).qname ++ c!"::__str__")) = true

/-- C63. A class for which a function `std::ostream & operator<<(std::ostream &, const Q &)` has been seen gets a `__str__` that prints the
object with it, unless the user asked for none. -/
theorem C63_str (i : Nat) (F : Func) (hF : F ∈ E.insertions) (hp : PrintsClass E F (E.cls i)) (hs : ¬ StrSkipped E i) :
    ∃ G ∈ E.insertions, Item.repr G ∈ classItems E i ∧ ∃ ns, itemText E i (.repr G) =
      "\n\tcl.def(\"__str__\", [](".toList ++ classQualifiedName E (E.cls i) ++ " const &o) -> std::string { std::ostringstream s;".toList ++ ns ++
      " s << o; return s.str(); } );\n".toList := by
  obtain ⟨G, hG⟩ := insertionOperator_isSome E hF (printsClass_key E hp)
  refine ⟨G, (insertionOperator_mem E hG).1, ?_, _, rfl⟩
  have : Item.repr G ∈ reprItems E i := by
    simp only [StrSkipped, not_or] at hs
    simp only [reprItems, globalInsertion, hG]
    rw [if_neg (by simpa using hs)]
    simp
  simp [classItems, this]

/-- C63. A class that is not a template specialisation gets a `__str__` only if an insertion operator with the right type has been seen, and
never if the user asked for none. -/
theorem C63_only_partial (hw : E.Wellfounded) (i : Nat) (F : Func) (h : Item.repr F ∈ classItems E i) : ¬ StrSkipped E i ∧ F ∈ E.insertions ∧
    ((E.cls i).targs = none → functionPointerType E F = "std::ostream & (*)(std::ostream &, const ".toList ++
      (if (E.cls i).isStruct then c!"struct " else c!"class ") ++ classQualifiedName E (E.cls i) ++ c!" &)") := by
  have hin : Item.repr F ∈ reprItems E i := by
    simp only [classItems, List.mem_append] at h
    rcases h with ((((((h | h) | h) | h) | h) | h) | h)
    · rcases ctorItems_kind E h with h | ⟨t, h | h | h⟩ <;> cases h
    · obtain ⟨e, h⟩ := enumItems_kind E h; cases h
    · obtain ⟨e, h, _⟩ := (mem_dataMembers E i _).1 h; cases h
    · rcases (mem_memberFunctions E i _).1 h with ⟨g, hg, _⟩ | ⟨g, hg, _⟩ <;> cases hg
    · obtain ⟨k, _, h | h⟩ := (mem_templateBasesF E hw _ i (Nat.lt_succ_self _) _).1 h
      · obtain ⟨e, h, _⟩ := (mem_dataMembers E k _).1 h; cases h
      · rcases (mem_memberFunctions E k _).1 h with ⟨g, hg, _⟩ | ⟨g, hg, _⟩ <;> cases hg
    · exact h
    · obtain ⟨e, h⟩ := addOnItems_kind E h; cases h
  simp only [reprItems] at hin
  split at hin
  · cases hin
  · rename_i hs
    split at hin
    · rename_i G hG
      simp only [List.mem_singleton, Item.repr.injEq] at hin
      subst hin
      refine ⟨by simpa [StrSkipped] using hs, ?_⟩
      simp only [globalInsertion] at hG
      split at hG
      · rename_i G' hG'
        cases hG
        obtain ⟨h1, h2⟩ := insertionOperator_mem E hG'
        exact ⟨h1, fun _ => h2⟩
      · split at hG
        · rename_i args ha
          exact ⟨(insertionOperator_mem E hG).1, fun hn => by rw [ha] at hn; cases hn⟩
        · cases hG
    · cases hin

/-- `template<class T> std::ostream & m::operator<<(std::ostream &, const m::A<T> &)`. -/
def templateInsertion : Func :=
  { exampleMethod c!"operator<<" true (.basic 0) [⟨c!"s", .basic 0, false⟩, ⟨c!"a", .dep 1, false⟩] with
    qname := c!"m::operator<<", method := none, templated := .functionTemplate }

/-- A program with a template `n::A<T>` that has no insertion operator and a template `m::A<T>` that has one; class 0 is `n::A<int>`. The
printed type of a parameter that depends on a template parameter has no namespace. -/
def twoTemplates : Env :=
  { exampleEnv with
    cls := fun _ => { exampleRecord with qname := c!"n::A", targs := some [⟨c!"int", .integral (.basic 0)⟩] }
    tyName := fun
      | .basic 0 => c!"std::ostream &"
      | _ => c!"const A<type-parameter-0-0> &"
    insertions := [templateInsertion] }

/-- C63 fails for class templates: `n::A<int>` gets a `__str__` because of the operator of `m::A`, and the generated code, which looks for
an operator for `n::A<int>`, does not compile. -/
theorem C63_template_false : twoTemplates.Wellfounded ∧ Item.repr templateInsertion ∈ classItems twoTemplates 0 ∧
    itemText twoTemplates 0 (.repr templateInsertion) =
      c!"\n\tcl.def(\"__str__\", [](n::A<int> const &o) -> std::string { std::ostringstream s; using namespace m; s << o; return s.str(); } );\n" := by
  refine ⟨⟨?_, ?_, ?_⟩, by decide +kernel, by decide +kernel⟩
  · intro i b hb; simp [twoTemplates, exampleRecord] at hb
  · intro i t ht; simp [twoTemplates, Record.typeArgs, Record.functionArgTypes, TArg.type?] at ht
  · intro i j hj; simp [Env.nestedClasses, twoTemplates, exampleRecord] at hj

/-- The hypotheses of `C63_str` are met by a class `A` with `std::ostream & operator<<(std::ostream &, const class A &)`. -/
example : let F : Func := { exampleMethod c!"operator<<" true (.basic 1) [⟨c!"s", .basic 1, false⟩, ⟨c!"a", .basic 2, false⟩] with method := none }
    let E : Env := { exampleEnv with
      tyName := fun | .basic 1 => c!"std::ostream &" | .basic 2 => c!"const class A &" | t => exampleTyName t, insertions := [F] }
    PrintsClass E F (E.cls 0) ∧ ¬ StrSkipped E 0 ∧ Item.repr F ∈ classItems E 0 :=
  ⟨⟨rfl, by decide +kernel, by decide +kernel⟩, by rintro (h | h) <;> revert h <;> decide +kernel, by decide +kernel⟩

/-! ## C48: nested classes -/

/-- `struct A { struct B {}; };` with the configuration entry `-class A::B`. -/
def skippedNested : Env :=
  { exampleEnv with
    cls := fun i => if i = 0 then { exampleRecord with members := [.nested 1] }
      else { exampleRecord with name := c!"B", qname := c!"A::B", access := .pub, outer := some 0 }
    nestRank := fun i => if i = 0 then 1 else 0
    cfg := { classesToSkip := [c!"A::B"] } }

/-- C48 fails for nested classes: `A::B` is bound although the user asked to skip it. -/
theorem C48_nested_skip_false : skippedNested.Wellfounded ∧ skipClass skippedNested 1 = .ok true ∧
    1 ∈ nestedBound skippedNested (skippedNested.cls 0) ∧
    (classOutput skippedNested 0).code =
      (c!"\t{ // A file:a.h line:2\n\t\tpybind11::class_<A, std::shared_ptr<A>> cl(M(\"\"), \"A\", \"\");\n" ++
       c!"\t\tcl.def( pybind11::init( [](){ return new A(); } ) );\n\n" ++
       c!"\t\t{ // A::B file:a.h line:2\n\t\t\tauto & enclosing_class = cl;\n" ++
       c!"\t\t\tpybind11::class_<A::B, std::shared_ptr<A::B>> cl(enclosing_class, \"B\", \"\");\n" ++
       c!"\t\t\tcl.def( pybind11::init( [](){ return new A::B(); } ) );\n\t\t}\n\n\t}\n") := by
  refine ⟨⟨?_, ?_, ?_⟩, ?_, ?_, ?_⟩
  · intro i b hb
    simp only [skippedNested] at hb
    split at hb <;> simp [exampleRecord] at hb
  · intro i t ht
    have : (skippedNested.cls i).targs = none := by simp only [skippedNested]; split <;> rfl
    simp [Record.typeArgs, Record.functionArgTypes, this] at ht
  · intro i j hj
    simp only [Env.nestedClasses, skippedNested, List.mem_flatMap] at hj
    obtain ⟨m, hm, hj⟩ := hj
    by_cases hi : i = 0
    · subst hi
      simp at hm
      subst hm
      simp at hj
      subst hj
      decide
    · simp [hi, exampleRecord] at hm
  · show skipClassF _ 1 1 = _
    unfold skipClassF
    rw [if_pos (by decide +kernel)]
  · decide +kernel
  · decide +kernel

/-! ## An example with all kinds of members -/

/-- A member function without parameters. -/
def simpleMethod (parent : Nat) (cls name : Str) (access : Access) : Func :=
  { exampleMethod name false (.basic 0) [] with
    qname := cls ++ c!"::" ++ name
    method := some { parent := parent, access := access, kind := .ordinary, isStatic := false, isConst := false, isVirtual := false,
                     isPure := false, isFinal := false, isCopyAssign := false, exceptionSpec := 0 } }

/-- `template<class T> struct D : B { int f(); int x; const int y; enum E { X, Y }; struct N {}; private: int g(); };` with
`struct B { int h(); int z; };`, instantiated as `D<int>`. -/
def richExample : Env :=
  { exampleEnv with
    cls := fun i =>
      if i = 0 then { exampleRecord with
        name := c!"D", qname := c!"D", targs := some [⟨c!"int", .integral (.basic 0)⟩], bases := [publicBase 1]
        members := [.method (simpleMethod 0 c!"D" c!"f" .pub), .method (simpleMethod 0 c!"D" c!"g" .priv),
          .field ⟨c!"x", c!"D::x", .basic 0, .pub, false⟩, .field ⟨c!"y", c!"D::y", .const (.basic 0), .pub, false⟩, .enum 0, .nested 2] }
      else if i = 1 then { exampleRecord with
        name := c!"B", qname := c!"B"
        members := [.method (simpleMethod 1 c!"B" c!"h" .pub), .field ⟨c!"z", c!"B::z", .basic 0, .pub, false⟩] }
      else { exampleRecord with name := c!"N", qname := c!"D::N", access := .pub, outer := some 0 }
    enumD := fun _ => { exampleEnum with access := .pub, outer := some 0 }
    baseRank := fun i => if i = 0 then 1 else 0
    nestRank := fun i => if i = 0 then 1 else 0 }

theorem richExample_wellfounded : richExample.Wellfounded := by
  refine ⟨?_, ?_, ?_⟩
  · intro i b hb j hj
    by_cases h0 : i = 0
    · subst h0
      have : b = publicBase 1 := by simpa [richExample] using hb
      subst this
      cases hj
      decide
    · by_cases h1 : i = 1 <;> simp [richExample, h0, h1, exampleRecord] at hb
  · intro i t ht
    by_cases h0 : i = 0
    · simp [richExample, h0, Record.typeArgs, Record.functionArgTypes, TArg.type?] at ht
    · by_cases h1 : i = 1 <;> simp [richExample, h0, h1, exampleRecord, Record.typeArgs, Record.functionArgTypes] at ht
  · intro i j hj
    by_cases h0 : i = 0
    · subst h0
      have : j = 2 := by
        simpa [richExample, Env.nestedClasses] using hj
      subst this
      decide
    · by_cases h1 : i = 1 <;> simp [richExample, h0, h1, exampleRecord, Env.nestedClasses] at hj

/-- The conditions of `C48_methods`, `C48_fields`, `C48_enums`, `C61_class_statement`, `C62_readonly_partial` and `C64_nested` are met in
`richExample`. The private method `g` is not bound; the members of `B` are bound as members of `D<int>`. -/
example : classItems richExample 0 =
      [.implicitDefault, .enum 0, .field 0 ⟨c!"x", c!"D::x", .basic 0, .pub, false⟩, .field 0 ⟨c!"y", c!"D::y", .const (.basic 0), .pub, false⟩,
       .method (simpleMethod 0 c!"D" c!"f" .pub) none false, .field 1 ⟨c!"z", c!"B::z", .basic 0, .pub, false⟩,
       .method (simpleMethod 1 c!"B" c!"h" .pub) none false] ∧
    nestedBound richExample (richExample.cls 0) = [2] ∧ boundBases richExample (richExample.cls 0) = [1] ∧ OneFirstDecl richExample 0 ∧
    builtinDecl richExample (richExample.cls 0).qname = false :=
  ⟨by decide +kernel, by decide +kernel, by decide +kernel, by unfold OneFirstDecl; decide +kernel, by decide +kernel⟩

/-- The generated code for `D<int>`. -/
example : (classOutput richExample 0).code =
    (c!"\t{ // D file:a.h line:2\n\t\tpybind11::class_<D<int>, std::shared_ptr<D<int>>, B> cl(M(\"\"), \"D_int_t\", \"\");\n" ++
     c!"\t\tcl.def( pybind11::init( [](){ return new D<int>(); } ) );\n\n" ++
     c!"\t\tpybind11::enum_<E>(cl, \"E\", pybind11::arithmetic(), \"\")\n\t\t\t.value(\"X\", X)\n\t\t\t.value(\"Y\", Y)\n\t\t\t.export_values();\n\n" ++
     c!"\t\tcl.def_readwrite(\"x\", &D<int>::x);\n\t\tcl.def_readonly(\"y\", &D<int>::y);\n" ++
     c!"\t\tcl.def(\"f\", (int (D<int>::*)()) &D::f, \"C++: D::f() --> int\");\n\t\tcl.def_readwrite(\"z\", &B::z);\n" ++
     c!"\t\tcl.def(\"h\", (int (B::*)()) &B::h, \"C++: B::h() --> int\");\n\n" ++
     c!"\t\t{ // D::N file:a.h line:2\n\t\t\tauto & enclosing_class = cl;\n" ++
     c!"\t\t\tpybind11::class_<D::N, std::shared_ptr<D::N>> cl(enclosing_class, \"N\", \"\");\n" ++
     c!"\t\t\tcl.def( pybind11::init( [](){ return new D::N(); } ) );\n\t\t}\n\n\t}\n") := by
  decide +kernel

end Binder
