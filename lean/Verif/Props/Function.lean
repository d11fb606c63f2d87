import Verif.Lemmas.Function

/-!
# Properties C40 - C43, C53: bindings of functions and enumerations

`E : Env` is an arbitrary program as clang presents it, with an arbitrary configuration; see `Verif.Model.Ast`.
-/

namespace Binder

open Cxx Spec

variable (E : Env)

/-! ## C40: operators -/

/-- C40. An operator gets the special method of the same meaning, or the plain name if Python has none. -/
theorem C40_special (F : Func) (hop : F.isOperator = true) (py : Str)
    (h : (F.name, F.params.length, py) ∈ specialMethod ++ plainMethod) : pythonFunctionName F = py := by
  have key : ∀ t ∈ specialMethod ++ plainMethod, pythonOperator t.1 t.2.1 = t.2.2 := by decide
  have := key _ h
  simpa [pythonFunctionName, hop] using this

/-- C40. The call operator is `__call__` for every number of parameters. -/
theorem C40_call (F : Func) (hop : F.isOperator = true) (h : F.name = c!"operator()") : pythonFunctionName F = c!"__call__" := by
  have e : operatorTable.lookup c!"operator()" = some [c!"__call__"] := by decide
  simp only [pythonFunctionName, hop, if_true, h, pythonOperator, e]
  cases hn : F.params.length with
  | zero => rfl
  | succ n => rfl

/-- C40. Everything that is not an operator keeps its name. -/
theorem C40_other (F : Func) (h : F.isOperator = false) : pythonFunctionName F = F.name := by
  simp [pythonFunctionName, h]

theorem pythonOperator_none {name : Str} (h : name ∉ operatorTable.map (·.1)) (n : Nat) : pythonOperator name n = [] := by
  have : operatorTable.lookup name = none := by
    rw [List.lookup_eq_none_iff]
    intro p hp
    rw [bne_iff_ne]
    intro e
    exact h (e ▸ List.mem_map_of_mem hp)
  simp [pythonOperator, this]

/-- C40. An operator that has none of the names above is never bound, so it cannot clash with anything. -/
theorem C40_unsupported (F : Func) (hop : F.isOperator = true) (hc : F.name ≠ c!"operator()")
    (h : ∀ t ∈ specialMethod ++ plainMethod, t.1 ≠ F.name) : functionBindable E F = false := by
  have hn : F.name ∉ operatorTable.map (·.1) := by
    intro hm
    have key : ∀ x ∈ operatorTable.map (·.1), x = c!"operator()" ∨ ∃ t ∈ specialMethod ++ plainMethod, t.1 = x := by decide
    rcases key _ hm with e | ⟨t, ht, e⟩
    · exact hc e
    · exact h t ht e
  simp [functionBindable, hop, pythonOperator_none hn]

theorem legalArity_le {op : Str} {n : Nat} (h : legalArity op n) (hc : op ≠ c!"operator()") : n = 0 ∨ n = 1 := by
  unfold legalArity at h
  split at h
  · exact h
  · split at h
    · exact .inl h
    · exact .inr h

instance (op : Str) (n : Nat) : Decidable (legalArity op n) := by unfold legalArity; infer_instance

theorem legal_listed {op : Str} {n : Nat} (h : legalArity op n) (hc : op ≠ c!"operator()") (ha : ¬ (op = c!"operator&" ∧ n = 0))
    (hm : op ∈ operatorTable.map (·.1)) : (op, n, pythonOperator op n) ∈ specialMethod ++ plainMethod := by
  have key : ∀ x ∈ operatorTable.map (·.1), x ≠ c!"operator()" → ∀ k ∈ [0, 1], legalArity x k → ¬ (x = c!"operator&" ∧ k = 0) →
      (x, k, pythonOperator x k) ∈ specialMethod ++ plainMethod := by decide
  refine key op hm hc n ?_ h ha
  rcases legalArity_le h hc with rfl | rfl <;> simp

/-- C40, partial. Two bindable member operators with a number of parameters that C++ allows get the same Python name only if they are
the same operation. Missing: the unary `operator&`, see `C40_address_of_false`. -/
theorem C40_distinct_partial (F G : Func) (hF : F.isOperator = true) (hG : G.isOperator = true)
    (bF : functionBindable E F = true) (bG : functionBindable E G = true)
    (lF : legalArity F.name F.params.length) (lG : legalArity G.name G.params.length)
    (aF : ¬ (F.name = c!"operator&" ∧ F.params.length = 0)) (aG : ¬ (G.name = c!"operator&" ∧ G.params.length = 0))
    (h : pythonFunctionName F = pythonFunctionName G) :
    F.name = G.name ∧ (F.params.length = G.params.length ∨ F.name = c!"operator()") := by
  have mem : ∀ H : Func, H.isOperator = true → functionBindable E H = true → H.name ∈ operatorTable.map (·.1) := by
    intro H hop hb
    refine Decidable.byContradiction fun hn => ?_
    simp [functionBindable, hop, pythonOperator_none hn] at hb
  have nocall : ∀ t ∈ specialMethod ++ plainMethod, t.2.2 ≠ c!"__call__" := by decide
  have inj : ∀ t ∈ specialMethod ++ plainMethod, ∀ u ∈ specialMethod ++ plainMethod, t.2.2 = u.2.2 → t.1 = u.1 ∧ t.2.1 = u.2.1 := by
    decide
  have hFG : ∀ H : Func, H.isOperator = true → pythonFunctionName H = pythonOperator H.name H.params.length := by
    intro H e; simp [pythonFunctionName, e]
  by_cases cF : F.name = c!"operator()" <;> by_cases cG : G.name = c!"operator()"
  · exact ⟨cF.trans cG.symm, .inr cF⟩
  · exfalso
    have := legal_listed lG cG aG (mem G hG bG)
    apply nocall _ this
    rw [← hFG G hG, ← h, C40_call F hF cF]
  · exfalso
    have := legal_listed lF cF aF (mem F hF bF)
    apply nocall _ this
    rw [← hFG F hF, h, C40_call G hG cG]
  · have h1 := legal_listed lF cF aF (mem F hF bF)
    have h2 := legal_listed lG cG aG (mem G hG bG)
    have := inj _ h1 _ h2 (by simpa [hFG F hF, hFG G hG] using h)
    exact ⟨this.1, .inl this.2⟩

/-- A member function with the given name, parameters and return type, for the examples below. -/
def exampleMethod (name : Str) (isOperator : Bool) (ret : Ty) (params : List Param) : Func :=
  { ptr := 1, name := name, qname := c!"A::" ++ name, incl := c!"<a.h>", line := c!"3", comment := [], ret := ret, params := params,
    isOperator := isOperator, isDeleted := false, isVariadic := false, isConversion := false, templated := .nonTemplate, targs := none,
    method := some { parent := 0, access := .pub, kind := .ordinary, isStatic := false, isConst := false, isVirtual := false,
                     isPure := false, isFinal := false, isCopyAssign := false, exceptionSpec := 0 } }

/-- A complete public class `A` without members, for the examples below. -/
def exampleRecord : Record :=
  { name := c!"A", qname := c!"A", incl := c!"<a.h>", line := c!"2", comment := [], targs := none, access := .none, outer := none,
    isComplete := true, isDependent := false, inAnonymousNamespace := false, hasNameForLinkage := true, isAnonymous := false,
    hasInstantiationPoint := false, isAbstract := false, isFinal := false, hasDefaultConstructor := true,
    needsImplicitDefaultConstructor := true, isFirstDecl := true, isThisDefinition := true, definition := none, dtorAccess := none,
    bases := [], members := [] }

/-- An enumeration `E { X }`, for the examples below. -/
def exampleEnum : EnumD :=
  { ptr := 5, name := c!"E", qname := c!"E", incl := c!"<a.h>", line := c!"9", comment := [], access := .none, outer := none,
    isInstanceMember := false, isComplete := true, isScoped := false, isScopedUsingClassTag := false,
    enumerators := [(c!"X", c!"X"), (c!"Y", c!"Y")], definitionIncl := none }

/-- The types of the examples: `int`, `A`, and pointers and references to them. -/
def exampleTyName : Ty → Str
  | .basic _ => c!"int"
  | .record _ => c!"A"
  | .enum _ => c!"E"
  | .ptr t => exampleTyName t ++ c!" *"
  | .lref t => exampleTyName t ++ c!" &"
  | .const t => c!"const " ++ exampleTyName t
  | _ => c!"?"

/-- A program with the class `A` and the enumeration `E`. -/
def exampleEnv : Env :=
  { cls := fun _ => exampleRecord, enumD := fun _ => exampleEnum, tyName := exampleTyName, simplify := id, cfg := {},
    opts := ⟨false, false, false, true, false⟩, holder := c!"std::shared_ptr", baseRank := fun _ => 0, argRank := fun _ => 0,
    nestRank := fun _ => 0 }

/-- C40 fails for the unary `operator&`: it is bindable, and gets the name `__and__` of the bitwise and. -/
theorem C40_address_of_false : ∃ F G : Func, F.isOperator = true ∧ G.isOperator = true ∧ functionBindable exampleEnv F = true ∧
    functionBindable exampleEnv G = true ∧ legalArity F.name F.params.length ∧ legalArity G.name G.params.length ∧
    F.params.length ≠ G.params.length ∧ pythonFunctionName F = c!"__and__" ∧ pythonFunctionName G = c!"__and__" :=
  ⟨exampleMethod c!"operator&" true (.ptr (.record 0)) [],
   exampleMethod c!"operator&" true (.record 0) [⟨c!"b", .record 0, false⟩], rfl, rfl, by decide +kernel, by decide +kernel, by decide,
   by decide, by decide, by decide, by decide⟩

/-- The hypotheses of `C40_distinct_partial` are met by `A operator-(A)` and `A operator-()`, which get different names. -/
example : functionBindable exampleEnv (exampleMethod c!"operator-" true (.record 0) [⟨c!"b", .record 0, false⟩]) = true ∧
    functionBindable exampleEnv (exampleMethod c!"operator-" true (.record 0) []) = true ∧ legalArity c!"operator-" 0 ∧
    legalArity c!"operator-" 1 ∧
    pythonFunctionName (exampleMethod c!"operator-" true (.record 0) [⟨c!"b", .record 0, false⟩]) = c!"__sub__" ∧
    pythonFunctionName (exampleMethod c!"operator-" true (.record 0) []) = c!"__neg__" :=
  ⟨by decide +kernel, by decide +kernel, by decide, by decide, by decide, by decide⟩

/-! ## C41 - C43: overloads -/

/-- How a lambda declares parameter number `i`: its type, followed by a reference unless it is a pointer or reference already. -/
def lambdaParamOf (p : Param) (i : Nat) : Str × Str :=
  (stdTy E p.ty ++ (if returnKind p.ty = none then (if p.ty.isConst then c!" & " else c!" const & ") else c!" "),
   c!"a" ++ Nat.toDigits 10 i)

/-- What the binding of a function with its first `k` arguments has to call. A member function is called on the object `o`. `lam` says
that the address of the function may not be used. -/
structure Forwards (F : Func) (parent : Option Nat) (lam : Bool) (k : Nat) (callable : Str) : Prop where
  /-- All arguments: the address of the function, cast to its type. -/
  direct : k = F.params.length → lam = false → F.isVariadic = false →
    ∃ p : Pointer, callable = p.text ∧ p.ret = stdTy E F.ret ∧ p.types = F.params.map (fun q => stdTy E q.ty) ∧ p.isConst = F.isConst ∧
      p.target = calledName E F parent ++ functionTemplateText E F ∧
      p.cls = (match F.method with
        | some m => if m.isStatic then [] else classQualifiedName E (E.cls m.parent) ++ c!"::"
        | none => [])
  /-- Fewer arguments: a lambda with exactly `k` parameters that passes them all, in order. -/
  lambda : (k < F.params.length ∨ lam = true ∨ F.isVariadic = true) →
    ∃ l : Lambda, callable = l.text ∧ l.ret = lambdaReturnType E F ∧ l.args = argNames k ∧
      ∃ ps : List (Str × Str), ps = (F.params.take k).mapIdx (fun i p => lambdaParamOf E p i) ∧
      match F.method with
      | some m => if m.isStatic then l.callee = calledName E F parent ∧ l.params = ps
          else l.callee = c!"o." ++ F.name ∧
            l.params = (classQualifiedName E (E.cls (parent.getD m.parent)) ++ (if m.isConst then c!" const" else []) ++ c!" &", c!"o") :: ps
      | none => l.callee = calledName E F parent ∧ l.params = ps


theorem lambdaParam_of (p : Param) (i : Nat) : lambdaParam E (p, i) = (lambdaParamOf E p i).1 ++ (lambdaParamOf E p i).2 := by
  have h := returnKind_pointer p.ty
  have h2 : returnKind p.ty = none ↔ (!p.ty.isRef && !p.ty.isPointer) = true := by
    cases hk : returnKind p.ty with
    | none => simp [hk] at h; simp [h, Ty.isRef]
    | some x => cases x <;> simp [hk] at h <;> simp [h, Ty.isRef]
  unfold lambdaParam lambdaParamOf argName natStr
  by_cases hk : returnKind p.ty = none
  · rw [if_pos (h2.1 hk), if_pos hk]
    cases p.ty.isConst <;> simp
  · rw [if_neg (fun e => hk (h2.2 e)), if_neg hk]; simp

theorem lambdaParams_of (ps : List Param) (k : Nat) : ((ps.zipIdx).take k).map (lambdaParam E) =
    ((ps.take k).mapIdx fun i p => lambdaParamOf E p i).map fun q => q.1 ++ q.2 := by
  apply List.ext_getElem
  · simp
  · intro i h1 h2
    simp [lambdaParam_of]

attribute [local irreducible] lambdaReturnType calledName classQualifiedName stdTy in
theorem forwards (F : Func) (parent : Option Nat) (lam : Bool) (k : Nat) (hk : k ≤ F.params.length) :
    Forwards E F parent lam k (overloadDef E F k parent lam).callable := by
  constructor
  · intro h1 h2 h3
    refine ⟨⟨stdTy E F.ret, pointerClass E F, F.params.map (fun q => stdTy E q.ty), F.isConst,
      calledName E F parent ++ functionTemplateText E F⟩, ?_, rfl, rfl, rfl, rfl, rfl⟩
    simp only [overloadDef, h1, h2, h3, Bool.or_self, Bool.not_false, decide_true, Bool.and_self, if_true, directCallable,
      functionPointerType_eq, functionArguments_eq, Pointer.text, maybeConst, List.append_assoc]
  · intro h
    have hc : (k = F.params.length && !(lam || F.isVariadic)) = false := by
      rcases h with h | h | h
      · have : ¬ k = F.params.length := by omega
        simp [this]
      · simp [h]
      · simp [h]
    have e : (overloadDef E F k parent lam).callable = lambdaCallable E F k parent := by simp only [overloadDef, hc]; rfl
    rw [e]
    have hlen : ((F.params.take k).mapIdx (fun i p => lambdaParamOf E p i)).length = k := by simp; omega
    generalize hps : (F.params.take k).mapIdx (fun i p => lambdaParamOf E p i) = ps at hlen
    have h1 : (lambdaArguments E F k).1 = listText (ps.map fun q => q.1 ++ q.2) := by
      rw [lambdaArguments_fst, lambdaParams_of, hps]
    have h2 := lambdaArguments_snd E F k hk
    cases hm : F.method with
    | none =>
      refine ⟨⟨ps, lambdaReturnType E F, calledName E F parent, argNames k⟩, ?_, rfl, rfl, ps, rfl, ?_⟩
      · simp only [lambdaCallable, hm, h1, h2, Lambda.text, List.append_assoc]
      · exact ⟨rfl, rfl⟩
    | some m =>
      cases hs : m.isStatic with
      | true =>
        refine ⟨⟨ps, lambdaReturnType E F, calledName E F parent, argNames k⟩, ?_, rfl, rfl, ps, rfl, ?_⟩
        · simp only [lambdaCallable, hm, hs, h1, h2, Lambda.text, List.append_assoc, Bool.not_true, if_neg, Bool.false_eq_true,
            not_false_iff]
        · simp [hs]
      | false =>
        refine ⟨⟨(classQualifiedName E (E.cls (parent.getD m.parent)) ++ (if m.isConst then c!" const" else []) ++ c!" &", c!"o") :: ps,
          lambdaReturnType E F, c!"o." ++ F.name, argNames k⟩, ?_, rfl, rfl, ps, rfl, ?_⟩
        · have hmc : maybeConst F = if m.isConst then c!" const" else [] := by simp only [maybeConst, Func.isConst, hm]
          simp only [lambdaCallable, hm, hs, h1, h2, Lambda.text, hmc, Bool.not_false, if_true, List.map_cons, listText_cons,
            List.length_map, hlen, List.append_assoc, List.cons_append, List.nil_append]
        · simp [hs]

/-- C41. The binding of a function with `n` parameters of which a call must pass `d` consists of one `def` statement for each number of
arguments from `d` to `n`, in increasing order; all have the same name, and the one for `k` arguments forwards exactly these. The
statements are preceded by a comment if the user asked for it. -/
theorem C41_overloads (module : Str) (F : Func) (parent : Option Nat) (lam : Bool) (d : Nat) (hd : MinArity F.params d) :
    ∃ (comment : Str) (defs : List Def), bindFunctionText E module F parent lam =
        comment ++ (defs.map fun x => module ++ x.text ++ c!"\n").flatten ∧
      (E.opts.annotateFunctions = false → comment = []) ∧
      (E.opts.annotateFunctions = true → c!"\t// function-signature: " <+: comment) ∧
      defs.length = F.params.length + 1 - d ∧
      ∀ i, ∀ h : i < defs.length, (defs[i]).isStatic = F.isStatic ∧
        (defs[i]).pyName = (if F.isStatic then E.cfg.prefixForStaticMemberFunctions else []) ++ pythonFunctionName F ∧
        Forwards E F parent lam (d + i) (defs[i]).callable := by
  rw [minArity_iff] at hd
  subst hd
  refine ⟨_, _, bindFunctionText_eq E module F parent lam, ?_, ?_, ?_, ?_⟩
  · intro h; simp [h]
  · intro h
    rw [h, if_pos rfl, signatureComment]
    simp only [List.append_assoc]
    exact List.prefix_append _ _
  · simp [arities]
  · intro i h
    have hl : i < F.params.length + 1 - firstArity F := by simpa [arities] using h
    simp only [List.getElem_map, arities, List.getElem_range']
    refine ⟨rfl, rfl, ?_⟩
    rw [Nat.one_mul]
    exact forwards E F parent lam _ (by omega)

/-- C41. A smallest number of arguments always exists. -/
theorem C41_min_arity_exists (F : Func) : ∃ d, MinArity F.params d := ⟨_, (minArity_iff F _).2 rfl⟩

/-- C42. The `def` statement for `k` arguments has `k` keywords, the names of the first `k` parameters, in order; a lambda also has
exactly `k` parameters besides the object. -/
theorem C42_keywords (module : Str) (F : Func) (parent : Option Nat) (lam : Bool) (d : Nat) (hd : MinArity F.params d) :
    ∃ (comment : Str) (defs : List Def), bindFunctionText E module F parent lam =
        comment ++ (defs.map fun x => module ++ x.text ++ c!"\n").flatten ∧
      defs.length = F.params.length + 1 - d ∧
      ∀ i, ∀ h : i < defs.length, (defs[i]).keywords.length = d + i ∧
        (∀ j, ∀ hj : j < d + i, ∀ hp : j < F.params.length, (defs[i]).keywords[j]? = some (F.params[j]).name) ∧
        Forwards E F parent lam (defs[i]).keywords.length (defs[i]).callable := by
  rw [minArity_iff] at hd
  subst hd
  refine ⟨_, _, bindFunctionText_eq E module F parent lam, ?_, ?_⟩
  · simp [arities]
  · intro i h
    have hl : i < F.params.length + 1 - firstArity F := by simpa [arities] using h
    simp only [List.getElem_map, arities, List.getElem_range', Nat.one_mul]
    have e : (overloadDef E F (firstArity F + i) parent lam).keywords.length = firstArity F + i := by
      simp [overloadDef]; omega
    refine ⟨e, ?_, ?_⟩
    · intro j hj hp
      simp [overloadDef, hj, hp]
    · rw [e]; exact forwards E F parent lam _ (by omega)

/-- C43. Every `def` statement of a function names the configured policy for its kind of function and of return type, and none for
other return types; a call guard is emitted exactly if one is configured. -/
theorem C43_policy (module : Str) (F : Func) (parent : Option Nat) (lam : Bool) :
    ∃ (comment : Str) (defs : List Def), bindFunctionText E module F parent lam =
        comment ++ (defs.map fun x => module ++ x.text ++ c!"\n").flatten ∧ defs ≠ [] ∧
      ∀ x ∈ defs, x.policy = policyFor E.cfg F.isInstance (returnKind F.ret) ∧
        (∀ g, x.guard = some g ↔ (g = E.cfg.defaultCallGuard ∧ g ≠ [])) := by
  refine ⟨_, _, bindFunctionText_eq E module F parent lam, ?_, ?_⟩
  · have := firstArity_le F
    intro h
    have := congrArg List.length h
    simp [arities] at this
    omega
  · intro x hx
    simp only [List.mem_map] at hx
    obtain ⟨k, _, rfl⟩ := hx
    refine ⟨rfl, ?_⟩
    intro g
    simp only [overloadDef]
    split
    · rename_i h; simp only [h, reduceCtorEq, false_iff]; rintro ⟨rfl, h'⟩; exact h' rfl
    · rename_i h; simp only [Option.some.injEq]
      exact ⟨by rintro rfl; exact ⟨rfl, h⟩, fun h => h.1.symm⟩

/-- `A & f(int x, int y = 1)` takes at least one argument, and the two `def` statements of its binding are as one expects. -/
example : MinArity (exampleMethod c!"f" false (.lref (.record 0)) [⟨c!"x", .basic 0, false⟩, ⟨c!"y", .basic 0, true⟩]).params 1 ∧
    bindFunctionText exampleEnv c!"\tcl" (exampleMethod c!"f" false (.lref (.record 0)) [⟨c!"x", .basic 0, false⟩, ⟨c!"y", .basic 0, true⟩])
        (some 0) false =
      (c!"\tcl.def(\"f\", [](A &o, int const & a0) -> A & { return o.f(a0); }, \"\", pybind11::return_value_policy::automatic, pybind11::arg(\"x\"));\n" ++
       c!"\tcl.def(\"f\", (A & (A::*)(int, int)) &A::f, \"C++: A::f(int, int) --> A &\", pybind11::return_value_policy::automatic, pybind11::arg(\"x\"), pybind11::arg(\"y\"));\n") := by
  refine ⟨(minArity_iff _ _).2 (by decide), by decide +kernel⟩

/-! ## C25, C53: text of functions and enumerations -/

/-- C25. Binding a function always produces code, so that `is_binded()` answers yes afterwards. -/
theorem C25_function_text (F : Func) : functionCode E F ≠ [] := by simp [functionCode]

/-- C25. Binding an enumeration always produces code. -/
theorem C25_enum_text (e : EnumD) : enumCode E e ≠ [] := by simp [enumCode]

theorem dropLast_enumerators (head : Str) (es : List (Str × Str)) :
    (head ++ c!"\n" ++ es.flatMap enumeratorLine).dropLast = head ++ enumValues es := by
  have key : head ++ c!"\n" ++ es.flatMap enumeratorLine = head ++ enumValues es ++ c!"\n" := by
    induction es generalizing head with
    | nil => simp [enumValues]
    | cons x xs ih =>
      have := ih (head ++ c!"\n\t\t.value(\"" ++ x.1 ++ c!"\", " ++ x.2 ++ c!")")
      simpa [enumValues, enumeratorLine] using this
  rw [key, List.dropLast_concat]

/-- C53. The binding of an enumeration declares it under its own name, followed by one value for each enumerator, in order, and by
nothing but `export_values()`. -/
theorem C53_values (module : Str) (e : EnumD) :
    ∃ options, bindEnumText E module e =
      c!"\tpybind11::enum_<" ++ e.qname ++ c!">(" ++ module ++ c!", \"" ++ e.name ++ c!"\"" ++ options ++ c!")" ++
        enumValues e.enumerators ++ (if e.isScopedUsingClassTag then [] else c!"\n\t\t.export_values()") ++ c!";\n\n" ∧
      options = (if e.isScoped then [] else c!", pybind11::arithmetic()") ++ c!", \"" ++ docString e.comment ++ c!"\"" ++
        (match moduleLocalRequested E.cfg (nsOf E e.qname e.name) with | .ok false => [] | _ => c!", pybind11::module_local()") := by
  refine ⟨_, ?_, rfl⟩
  have ha : (if answer (moduleLocalRequested E.cfg (nsOf E e.qname e.name)) then c!", pybind11::module_local()" else []) =
      (match moduleLocalRequested E.cfg (nsOf E e.qname e.name) with | .ok false => [] | _ => c!", pybind11::module_local()") := by
    cases moduleLocalRequested E.cfg (nsOf E e.qname e.name) with
    | error _ => simp [answer]
    | ok b => cases b <;> simp [answer]
  have hd := dropLast_enumerators (c!"\tpybind11::enum_<" ++ e.qname ++ c!">(" ++ module ++ c!", \"" ++ e.name ++ c!"\"" ++
    ((if e.isScoped then [] else c!", pybind11::arithmetic()") ++ c!", \"" ++ docString e.comment ++ c!"\"" ++
        (match moduleLocalRequested E.cfg (nsOf E e.qname e.name) with | .ok false => [] | _ => c!", pybind11::module_local()")) ++ c!")")
      e.enumerators
  have hh : ∀ H : Str, H ++ c!")\n" = H ++ c!")" ++ c!"\n" := by intro H; simp
  have hs : (if e.isScopedUsingClassTag then c!";\n\n" else c!"\n\t\t.export_values();\n\n") =
      (if e.isScopedUsingClassTag then [] else c!"\n\t\t.export_values()") ++ c!";\n\n" := by
    cases e.isScopedUsingClassTag <;> rfl
  unfold bindEnumText
  rw [ha, hs, hh]
  simp only [← List.append_assoc] at hd ⊢
  rw [hd]

/-- C53, partial. Scoped enumerations declared with `class` do not export their values, unscoped ones do. Missing: `enum struct`, see
`C53_enum_struct_false`. -/
theorem C53_exports_partial (module : Str) (e : EnumD) :
    (e.isScoped = true → e.isScopedUsingClassTag = true →
      ∃ r, bindEnumText E module e = r ++ enumValues e.enumerators ++ c!";\n\n") ∧
    (e.isScoped = false → e.isScopedUsingClassTag = false →
      ∃ r, bindEnumText E module e = r ++ enumValues e.enumerators ++ c!"\n\t\t.export_values();\n\n") := by
  obtain ⟨o, h, _⟩ := C53_values E module e
  constructor
  · intro _ h2
    rw [if_pos h2, List.append_nil] at h
    exact ⟨_, h⟩
  · intro _ h2
    rw [if_neg (by simp [h2]), List.append_assoc] at h
    exact ⟨_, h⟩

/-- C53 fails for `enum struct E { X, Y }`: it is scoped, but its values are exported into the enclosing namespace. -/
theorem C53_enum_struct_false : ∃ e : EnumD, e.isScoped = true ∧ enumBindable e = true ∧
    ∃ r, bindEnumText exampleEnv c!"M(\"\")" e = r ++ enumValues e.enumerators ++ c!"\n\t\t.export_values();\n\n" :=
  ⟨{ exampleEnum with isScoped := true }, rfl, by decide,
   c!"\tpybind11::enum_<E>(M(\"\"), \"E\", \"\")", by decide +kernel⟩

/-- The text of an unscoped enumeration with two values. -/
example : bindEnumText exampleEnv c!"M(\"\")" exampleEnum =
    "\tpybind11::enum_<E>(M(\"\"), \"E\", pybind11::arithmetic(), \"\")\n\t\t.value(\"X\", X)\n\t\t.value(\"Y\", Y)\n\t\t.export_values();\n\n".toList := by
  decide +kernel

end Binder
