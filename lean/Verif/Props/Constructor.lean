import Verif.Props.Class

/-!
# C52, C60: constructors
-/

namespace Binder

open Cxx Spec

variable (E : Env)

/-- The classes of which a constructor binding may create an object. pybind11 uses the first one for objects of the class itself, and the
second one, if there are two, for objects of classes that a Python program derives from it. -/
def createdClasses (i : Nat) : List Str :=
  if (E.cls i).isAbstract then [callbackName E i]
  else if trampoline E i then [classQualifiedName E (E.cls i), callbackName E i]
  else [classQualifiedName E (E.cls i)]

/-- The statement for the first `k` arguments of a constructor. -/
def ctorInit (i : Nat) (t : Func) (k : Nat) : Init :=
  if k = t.params.length && !t.isVariadic then .direct (t.params.map fun p => stdTy E p.ty) ((t.params.take k).map (·.name))
  else .viaLambda ((t.params.take k).mapIdx fun n p => lambdaParamOf E p n) (argNames k) (createdClasses E i)
    (if (E.cls i).isAbstract || trampoline E i then none else some ((t.params.take k).map (·.name)))

theorem argAnnotations_eq (t : Func) (k : Nat) : argAnnotations t k = keywordText ((t.params.take k).map (·.name)) := by
  simp [argAnnotations, keywordText, List.flatMap_def, List.map_map, Function.comp_def]

theorem listText_one (a : Str) : listText [a] = a := by simp [listText, List.intercalate]
theorem listText_two (a b : Str) : listText [a, b] = a ++ c!", " ++ b := by simp [listText, List.intercalate]

theorem ctorText_eq (i : Nat) (t : Func) (k : Nat) (hk : k ≤ t.params.length) (ha : (E.cls i).isAbstract = true → trampoline E i = true) :
    ctorText E i t k = (if E.opts.annotateFunctions then signatureComment E t true else []) ++ (ctorInit E i t k).text := by
  unfold ctorText ctorInit
  congr 1
  by_cases hc : (k = t.params.length && !t.isVariadic) = true
  · rw [if_pos hc, if_pos hc]
    simp only [Init.text, functionArguments_eq, argAnnotations_eq, List.append_assoc]
  · rw [if_neg hc, if_neg hc]
    have h1 : (if k ≠ 0 then (lambdaArguments E t k).1 else []) =
        listText (((t.params.take k).mapIdx fun n p => lambdaParamOf E p n).map fun q => q.1 ++ q.2) := by
      by_cases h0 : k = 0
      · subst h0; simp [listText, List.intercalate]
      · rw [if_pos h0, lambdaArguments_fst, lambdaParams_of]
    have h2 := lambdaArguments_snd E t k hk
    simp only [h1, h2]
    have hn : ∀ x, newLambda (listText (((t.params.take k).mapIdx fun n p => lambdaParamOf E p n).map fun q => q.1 ++ q.2))
        (listText (argNames k)) x = newText ((t.params.take k).mapIdx fun n p => lambdaParamOf E p n) (argNames k) x := fun _ => rfl
    simp only [hn]
    by_cases hab : (E.cls i).isAbstract = true
    · have ht := ha hab
      simp [hab, ht, createdClasses, Init.text, trampolineName, listText_one]
    · by_cases ht : trampoline E i = true
      · simp [hab, ht, createdClasses, Init.text, trampolineName, listText_two]
      · simp [hab, ht, createdClasses, Init.text, listText_one, argAnnotations_eq]

theorem firstDefault_unique (ps : List Param) (d : Nat) (h : FirstDefault ps d) : d = firstDefault ps := by
  obtain ⟨h1, h2, h3⟩ := h
  have hl := firstDefault_le ps
  rcases Nat.lt_trichotomy d (firstDefault ps) with hd | hd | hd
  · have := firstDefault_before ps d (by omega) hd
    rw [h3 (by omega)] at this; cases this
  · exact hd
  · have := firstDefault_at ps (by omega)
    rw [h2 _ (by omega) hd] at this; cases this

theorem ctor_callback {i : Nat} {x : Item} (h : x ∈ ctorItems E i) (hab : (E.cls i).isAbstract = true) : trampoline E i = true := by
  rcases ((C48_constructors_partial E i _).1 h).1 with h | h
  · rw [hab] at h; cases h
  · exact h

theorem ctorInit_arity (i : Nat) (t : Func) (k : Nat) (hk : k ≤ t.params.length) : (ctorInit E i t k).arity = k := by
  unfold ctorInit
  split
  · rename_i hc
    simp only [Bool.and_eq_true, decide_eq_true_eq] at hc
    simp [Init.arity, hc.1]
  · simp [Init.arity]; omega

theorem ctors_eq (i : Nat) (t : Func) (h : Item.ctor t ∈ ctorItems E i) :
    itemText E i (.ctor t) = (((arities (firstDefault t.params) t.params.length).map (ctorInit E i t)).map fun x =>
      (if E.opts.annotateFunctions then signatureComment E t true else []) ++ x.text ++ c!"\n").flatten ∧
    ((arities (firstDefault t.params) t.params.length).map (ctorInit E i t)).map Init.arity =
      List.range' (firstDefault t.params) (t.params.length + 1 - firstDefault t.params) := by
  have hl := firstDefault_le t.params
  constructor
  · simp only [itemText, ctorsText, List.flatMap_def, List.map_map]
    congr 1
    apply List.map_congr_left
    intro k hk
    simp only [arities, List.mem_range'_1] at hk
    simp only [Function.comp_apply]
    rw [ctorText_eq E i t k (by omega) (ctor_callback E h)]
  · rw [List.map_map]
    refine (List.map_congr_left (g := id) ?_).trans (List.map_id _)
    intro k hk
    simp only [arities, List.mem_range'_1] at hk
    exact ctorInit_arity E i t k (by omega)

/-- C52 for constructors other than the copy constructor and the constructor without parameters. A constructor with `n` parameters, the
first default argument at position `d`, gets exactly one statement for each number of arguments from `d` to `n`, in this order. The
statement takes the first so many parameters; if these are all, it calls the constructor with its own parameter types, otherwise, or if
the constructor is variadic, lambdas pass exactly these arguments in order to the constructor of the class, and of the callback structure
if there is one (only of that if the class is abstract). -/
theorem C52_constructors (i : Nat) (t : Func) (h : Item.ctor t ∈ ctorItems E i) (d : Nat) (hd : FirstDefault t.params d) :
    ∃ (comment : Str) (inits : List Init), itemText E i (.ctor t) = (inits.map fun x => comment ++ x.text ++ c!"\n").flatten ∧
      (E.opts.annotateFunctions = false → comment = []) ∧
      (E.opts.annotateFunctions = true → c!"\t// function-signature: " <+: comment) ∧
      inits.map Init.arity = List.range' d (t.params.length + 1 - d) ∧
      ∀ x ∈ inits, (x.arity = t.params.length ∧ t.isVariadic = false ∧ ∃ ks, x = .direct (t.params.map fun p => stdTy E p.ty) ks) ∨
        ((x.arity < t.params.length ∨ t.isVariadic = true) ∧
          ∃ ks, x = .viaLambda ((t.params.take x.arity).mapIdx fun n p => lambdaParamOf E p n) (argNames x.arity) (createdClasses E i) ks) := by
  rw [firstDefault_unique _ _ hd]
  have hl := firstDefault_le t.params
  obtain ⟨h1, h2⟩ := ctors_eq E i t h
  refine ⟨_, _, h1, ?_, ?_, h2, ?_⟩
  · intro h; simp [h]
  · intro h
    rw [h, if_pos rfl, signatureComment]
    simp only [List.append_assoc]
    exact List.prefix_append _ _
  · intro x hx
    obtain ⟨k, hk, rfl⟩ := List.mem_map.1 hx
    simp only [arities, List.mem_range'_1] at hk
    have hk' : k ≤ t.params.length := by omega
    rw [ctorInit_arity E i t k hk']
    by_cases hc : (k = t.params.length && !t.isVariadic) = true
    · left
      have hc' := hc
      simp only [Bool.and_eq_true, decide_eq_true_eq, Bool.not_eq_true'] at hc'
      exact ⟨hc'.1, hc'.2, _, by rw [ctorInit, if_pos hc]⟩
    · right
      refine ⟨?_, _, by rw [ctorInit, if_neg hc]⟩
      by_cases hv : t.isVariadic = true
      · exact .inr hv
      · simp [hv] at hc
        exact .inl (by omega)

/-- C52 for the constructor without parameters: one statement without parameters. -/
theorem C52_default_constructor (i : Nat) (x : Item) (h : x ∈ ctorItems E i) (hx : x = .implicitDefault ∨ ∃ t, x = .defaultCtor t) :
    ∃ comment, itemText E i x = comment ++ c!"\tcl.def( pybind11::init( " ++ listText ((createdClasses E i).map (newText [] [])) ++
      c!" ) );\n" ∧ (E.opts.annotateFunctions = false → comment = []) ∧
      ((∃ t, x = .defaultCtor t) → ∃ t, x = ctorItem t ∧ t.params = []) := by
  have ha := ctor_callback E h
  have key : ∀ o, ∃ comment, defaultCtorText E i o = comment ++ c!"\tcl.def( pybind11::init( " ++
      listText ((createdClasses E i).map (newText [] [])) ++ c!" ) );\n" ∧ (E.opts.annotateFunctions = false → comment = []) := by
    intro o
    refine ⟨if E.opts.annotateFunctions then
      (match o with | some F => signatureComment E F true | none => c!"\t// function-signature: " ++ classQualifiedName E (E.cls i) ++ c!"()\n")
      else [], ?_, by intro h; simp [h]⟩
    unfold defaultCtorText
    simp only [List.append_assoc]
    congr 1
    by_cases hab : (E.cls i).isAbstract = true
    · have ht := ha hab
      simp [hab, ht, createdClasses, trampolineName, newLambda, newText, listText, List.intercalate]
    · by_cases ht : trampoline E i = true
      · simp [hab, ht, createdClasses, trampolineName, newLambda, newText, listText, List.intercalate]
      · simp [hab, ht, createdClasses, newLambda, newText, listText, List.intercalate]
  have hno : (∃ t, x = .defaultCtor t) → ∃ t, x = ctorItem t ∧ t.params = [] := by
    rintro ⟨t, rfl⟩
    have hc : ∀ t', Item.defaultCtor t = ctorItem t' → t'.params = [] := by
      intro t' e
      unfold ctorItem at e
      split at e
      · cases e
      · split at e
        · rename_i hc; simp only [Bool.and_eq_true, beq_iff_eq, List.length_eq_zero_iff] at hc; exact hc.2
        · cases e
    rcases ((C48_constructors_partial E i _).1 h).2.2 with ⟨h, _⟩ | ⟨t', e, _⟩ | ⟨t', e, _⟩
    · cases h
    · exact ⟨t', e, hc t' e⟩
    · exact ⟨t', e, hc t' e⟩
  rcases hx with rfl | ⟨t, rfl⟩
  · obtain ⟨c, h1, h2⟩ := key none; exact ⟨c, h1, h2, hno⟩
  · obtain ⟨c, h1, h2⟩ := key (some t); exact ⟨c, h1, h2, hno⟩

/-- C52 for the copy constructor: the statements take exactly one argument. An object of the class can be copied, unless the class is
abstract; so can an object of the callback structure, if there is one. Further parameters of a copy constructor, which must have default
arguments, are not available from Python (`C52_copy_default_false`). -/
theorem C52_copy_constructor_partial (i : Nat) (t : Func) (h : Item.copyCtor t ∈ ctorItems E i) :
    ∃ comment const, (E.opts.annotateFunctions = false → comment = []) ∧ (const = [] ∨ const = c!" const") ∧
      let copy := fun c : Str => c!"\tcl.def( pybind11::init( " ++ newText [(c ++ const, c!" &o")] [c!"o"] c ++ c!" ) );\n"
      itemText E i (.copyCtor t) = comment ++
        (if trampoline E i = false then copy (classQualifiedName E (E.cls i))
         else if (E.cls i).isAbstract then c!"\tcl.def(pybind11::init<" ++ callbackName E i ++ const ++ c!" &>());\n"
         else copy (callbackName E i) ++ (if t.access = .pub then copy (classQualifiedName E (E.cls i)) else [])) := by
  refine ⟨if E.opts.annotateFunctions then signatureComment E t true else [], constBit t, by intro h; simp [h], ?_, ?_⟩
  · unfold constBit; split
    · exact .inr rfl
    · exact .inl rfl
  · simp only [itemText, copyCtorText, newText, newLambda, trampolineName]
    congr 1
    by_cases ht : trampoline E i = true
    · by_cases hab : (E.cls i).isAbstract = true
      · simp [ht, hab]
      · by_cases hp : t.access = .pub <;> simp [ht, hab, hp, listText, List.intercalate]
    · simp [ht, listText, List.intercalate]

/-- C60 where it holds: if the class has no callback structure, and always for the statement with all arguments of a constructor that is
not variadic, the keywords are the names of the parameters, in order. -/
theorem C60_keywords_partial (i : Nat) (t : Func) (h : Item.ctor t ∈ ctorItems E i) (d : Nat) (hd : FirstDefault t.params d) :
    ∃ (comment : Str) (inits : List Init), itemText E i (.ctor t) = (inits.map fun x => comment ++ x.text ++ c!"\n").flatten ∧
      inits.map Init.arity = List.range' d (t.params.length + 1 - d) ∧
      ∀ x ∈ inits, (trampoline E i = false ∨ (x.arity = t.params.length ∧ t.isVariadic = false)) →
        x.keywords = (t.params.take x.arity).map (·.name) := by
  rw [firstDefault_unique _ _ hd]
  obtain ⟨h1, h2⟩ := ctors_eq E i t h
  refine ⟨_, _, h1, h2, ?_⟩
  intro x hx
  obtain ⟨k, hk, rfl⟩ := List.mem_map.1 hx
  have hl := firstDefault_le t.params
  simp only [arities, List.mem_range'_1] at hk
  rw [ctorInit_arity E i t k (by omega)]
  intro hc
  unfold ctorInit
  split
  · rfl
  · rename_i hd
    rcases hc with ht | ⟨rfl, hv⟩
    · have hab : (E.cls i).isAbstract = false := by
        cases hab : (E.cls i).isAbstract with
        | false => rfl
        | true => rw [ctor_callback E h hab] at ht; cases ht
      simp [Init.keywords, ht, hab]
    · simp [hv] at hd

/-! ## Examples and counterexamples -/

/-- A public constructor of class `A`, for the examples below. -/
def exampleCtor (params : List Param) (isDefault : Bool) (copy : Option Bool) : Func :=
  { exampleMethod c!"A" false (.basic 0) params with
    method := some { parent := 0, access := .pub, kind := .ctor isDefault false copy, isStatic := false, isConst := false, isVirtual := false,
                     isPure := false, isFinal := false, isCopyAssign := false, exceptionSpec := 0 } }

/-- A program with one class `A` with the given members. -/
def classWith (members : List Member) : Env := { exampleEnv with cls := fun _ => { exampleRecord with members := members } }

theorem classWith_wellfounded (members : List Member) (h : ∀ m ∈ members, (∀ j, m ≠ .nested j) ∧ (∀ a s, m ≠ .classTemplate a s)) :
    (classWith members).Wellfounded := by
  refine ⟨?_, ?_, ?_⟩
  · intro i b hb; simp [classWith, exampleRecord] at hb
  · intro i t ht; simp [classWith, exampleRecord, Record.typeArgs, Record.functionArgTypes] at ht
  · intro i j hj
    simp only [Env.nestedClasses, List.mem_flatMap] at hj
    obtain ⟨m, hm, hj⟩ := hj
    have := h m hm
    split at hj
    · exact absurd rfl (this.1 _)
    · exact absurd rfl (this.2 _ _)
    · cases hj

/-- `A(int x, int y = 1)`. -/
def twoArguments : Func := exampleCtor [⟨c!"x", .basic 0, false⟩, ⟨c!"y", .basic 0, true⟩] false none

/-- `A(const A &, int y = 1)`, a copy constructor. -/
def copyWithDefault : Func := exampleCtor [⟨c!"o", .lref (.const (.record 0)), false⟩, ⟨c!"y", .basic 0, true⟩] false (some true)

/-- The hypotheses of `C52_constructors` and `C60_keywords_partial` are met by `A(int x, int y = 1)`; its two statements. -/
example : Item.ctor twoArguments ∈ ctorItems (classWith [.method twoArguments]) 0 ∧ FirstDefault twoArguments.params 1 ∧
    itemText (classWith [.method twoArguments]) 0 (.ctor twoArguments) =
      (c!"\tcl.def( pybind11::init( [](int const & a0){ return new A(a0); } ), \"doc\" , pybind11::arg(\"x\"));\n" ++
       c!"\tcl.def( pybind11::init<int, int>(), pybind11::arg(\"x\"), pybind11::arg(\"y\") );\n\n") := by
  refine ⟨(C48_constructors_partial _ _ _).2 ⟨.inl rfl, rfl, .inr (.inl ⟨twoArguments, by decide +kernel, rfl, List.mem_cons_self, rfl, rfl,
    by decide +kernel, rfl⟩)⟩, ⟨by decide, ?_, ?_⟩, by decide +kernel⟩
  · intro i h hi
    have : i = 0 := by omega
    subst this; rfl
  · intro h; rfl

/-- C52 fails for a copy constructor with a further parameter: only the call with one argument is available. -/
theorem C52_copy_default_false : ∃ (E : Env) (t : Func), E.Wellfounded ∧ Item.copyCtor t ∈ ctorItems E 0 ∧ t.params.length = 2 ∧
    FirstDefault t.params 1 ∧ classItems E 0 = [.copyCtor t] ∧
    itemText E 0 (.copyCtor t) = "\tcl.def( pybind11::init( [](A const &o){ return new A(o); } ) );\n".toList := by
  refine ⟨{ exampleEnv with cls := fun _ => { exampleRecord with
      members := [.method copyWithDefault], needsImplicitDefaultConstructor := false } }, copyWithDefault, ?_, ?_, rfl, ⟨by decide, ?_, ?_⟩, ?_, by decide +kernel⟩
  · refine ⟨?_, ?_, ?_⟩
    · intro i b hb; simp [exampleRecord] at hb
    · intro i t ht; simp [exampleRecord, Record.typeArgs, Record.functionArgTypes] at ht
    · intro i j hj; simp [Env.nestedClasses] at hj
  · exact (C48_constructors_partial _ _ _).2 ⟨.inl rfl, rfl, .inr (.inl ⟨copyWithDefault, by decide +kernel, rfl, List.mem_cons_self, rfl, rfl,
      by decide +kernel, rfl⟩)⟩
  · intro i h hi
    have : i = 0 := by omega
    subst this; rfl
  · intro h; rfl
  · decide +kernel

/-- `struct A { A(int x, int y = 1); virtual int f(); };`. -/
def virtualWithDefault : Env := classWith [.method twoArguments, .method (virtualMethod 0 c!"A" c!"f" (.basic 0) [] false false false .pub)]

/-- C60 fails for a class with a callback structure: the statement for one argument has no keyword. -/
theorem C60_callback_false : virtualWithDefault.Wellfounded ∧ Item.ctor twoArguments ∈ ctorItems virtualWithDefault 0 ∧
    itemText virtualWithDefault 0 (.ctor twoArguments) =
      (c!"\tcl.def( pybind11::init( [](int const & a0){ return new A(a0); }, [](int const & a0){ return new PyCallBack_A(a0); } ), \"doc\");\n" ++
       c!"\tcl.def( pybind11::init<int, int>(), pybind11::arg(\"x\"), pybind11::arg(\"y\") );\n\n") := by
  refine ⟨classWith_wellfounded _ (by simp), (C48_constructors_partial _ _ _).2 ⟨.inl rfl, rfl, .inr (.inl ⟨twoArguments, by decide +kernel, rfl,
    List.mem_cons_self, rfl, rfl, by decide +kernel, rfl⟩)⟩, by decide +kernel⟩

/-- C48 fails for inherited constructors: a constructor that is not accessible, because it is protected in the base class, is bound if a
`using` declaration names it. (C++ gives an inherited constructor the access it has in the base class.) -/
theorem C48_inherited_access_false : ∃ (E : Env) (t : Func), E.Wellfounded ∧ MadePublic (E.cls 0) (.method t) ∧ t.isCtor = true ∧
    t.access = .prot ∧ Item.ctor t ∈ ctorItems E 0 := by
  let t : Func := { twoArguments with
    method := some { parent := 1, access := .prot, kind := .ctor false false none, isStatic := false, isConst := false, isVirtual := false,
                     isPure := false, isFinal := false, isCopyAssign := false, exceptionSpec := 0 } }
  refine ⟨classWith [.using .pub [.method t]], t, classWith_wellfounded _ (by simp), ⟨[.method t], by simp [classWith], by simp⟩, rfl, rfl,
    (C48_constructors_partial _ _ _).2 ⟨.inl rfl, rfl, .inr (.inr ⟨t, rfl, rfl, ⟨[.method t], by simp [classWith], by simp⟩, rfl, ?_⟩)⟩⟩
  decide +kernel

/-- C48 fails for inherited constructors: one that the user asked to skip, with `-function A::A`, is bound. -/
theorem C48_inherited_skip_false : ∃ (E : Env) (t : Func), E.Wellfounded ∧ MadePublic (E.cls 0) (.method t) ∧ t.isCtor = true ∧
    skipFunction E t = .ok true ∧ Item.ctor t ∈ ctorItems E 0 := by
  refine ⟨{ classWith [.using .pub [.method twoArguments]] with cfg := { functionsToSkip := [c!"A::A"] } }, twoArguments, ?_,
    ⟨[.method twoArguments], by simp [classWith], by simp⟩, rfl, ?_, (C48_constructors_partial _ _ _).2 ⟨.inl rfl, rfl, .inr (.inr
      ⟨twoArguments, by decide +kernel, rfl, ⟨[.method twoArguments], by simp [classWith], by simp⟩, rfl, ?_⟩)⟩⟩
  · obtain ⟨h1, h2, h3⟩ := classWith_wellfounded [.using .pub [.method twoArguments]] (by simp)
    exact ⟨h1, h2, h3⟩
  · unfold skipFunction
    rw [if_neg (by decide +kernel), if_neg (by decide +kernel), if_pos (by decide +kernel)]
  · decide +kernel

/-- C48 fails for the implicit default constructor: it is bound although it is deleted, because a field is a reference. -/
theorem C48_deleted_default_false : ∃ (E : Env) (f : Field), E.Wellfounded ∧ Member.field f ∈ (E.cls 0).members ∧ f.ty.isLRef = true ∧
    Item.implicitDefault ∈ ctorItems E 0 := by
  refine ⟨classWith [.field ⟨c!"r", c!"A::r", .lref (.basic 0), .pub, false⟩], _, classWith_wellfounded _ (by simp),
    by simp only [classWith, List.mem_singleton]; rfl, rfl, (C48_constructors_partial _ _ _).2 ⟨.inl rfl, rfl, .inl ⟨rfl, rfl, by decide +kernel, ?_⟩⟩⟩
  rintro ⟨t, _, _, h | ⟨ts, h, _⟩⟩ <;> simp [classWith] at h

end Binder
