import Verif.Spec.Import

/-!
# The text of a binding is the text of its calls
-/

namespace Binder
open Spec Cxx

theorem block_flatMap {α : Type} (l : List α) (f : α → List Op) (g : α → Str) (h : ∀ a ∈ l, Block (f a) (g a)) :
    Block (l.flatMap f) (l.flatMap g) := by
  induction l with
  | nil => exact .nil
  | cons a l ih => exact .append (h a (by simp)) (ih fun b hb => h b (by simp [hb]))

theorem block_pre {a : List Op} {s t : Str} (h : Block [] s) (h' : Block a t) : Block a (s ++ t) := .append h h'
theorem block_post {a : List Op} {s t : Str} (h : Block a s) (h' : Block [] t) : Block a (s ++ t) := by
  have := Block.append h h'
  rwa [List.append_nil] at this

theorem block_if {c : Prop} [Decidable c] {s : Str} (h : c → Block [] s) : Block [] (if c then s else []) := by
  split
  · exact h ‹_›
  · exact .nil

theorem gap_comment (a b c : Str) : Gap (c!"\t// " ++ a ++ (b ++ c ++ c!"\n")) := .inr (.inr (.inr (.inr (.inl ⟨a ++ (b ++ c), by simp⟩))))

theorem fileLine_eq (E : Env) (incl line : Str) : ∃ r, fileLine E incl line = r ++ c!"\n" := ⟨_, rfl⟩

theorem block_comment (E : Env) (r incl line : Str) : Block [] (c!"\t// " ++ r ++ fileLine E incl line) := by
  obtain ⟨x, hx⟩ := fileLine_eq E incl line
  rw [hx]
  exact .gap (.inr (.inr (.inr (.inr (.inl ⟨r ++ x, by simp⟩)))))

theorem block_signature (E : Env) (F : Func) (b : Bool) :
    Block [] (if E.opts.annotateFunctions then signatureComment E F b else []) := by
  apply block_if
  intro _
  have := block_comment E (c!"function-signature: " ++ functionQualifiedName E F b ++ c!"(" ++ functionArguments E F ++ c!")") F.incl F.line
  unfold signatureComment
  simpa using this

theorem block_overloads (F : Func) (first : Nat) (op : Op) (g : Nat → Str) (h : ∀ k, op.Is (g k)) :
    Block (overloads F first op) ((arities first F.params.length).flatMap g) := by
  unfold overloads
  rw [List.map_eq_flatMap]
  exact block_flatMap _ _ _ fun k _ => .call (h k)

/-- One `.def` line. -/
theorem is_overload (E : Env) (s : Scope) (F : Func) (k : Nat) (parent : Option Nat) (lam : Bool)
    (hs : ∀ ns, s = .module ns → F.isStatic = false) (m : Bool) (hm : ∀ q, s = .type q → m = !F.isStatic) :
    (Op.function s (boundName E F) m).Is (c!"\t" ++ s.text ++ bindOverload E F k parent lam ++ c!"\n") := by
  unfold bindOverload
  refine ⟨(if k = F.params.length && !lam then (directCallable E F parent, functionDoc E F) else (lambdaCallable E F k parent, [])).1 ++ c!", \"" ++
    (if k = F.params.length && !lam then (directCallable E F parent, functionDoc E F) else (lambdaCallable E F k parent, [])).2 ++ c!"\"" ++
    returnPolicy E F ++ argAnnotations F k ++ callGuard E, c!"\n", by simp, .inr ⟨[], by simp, ?_⟩⟩
  cases s with
  | module ns =>
    rw [hs ns rfl]
    simp
  | type q =>
    rw [hm q rfl]
    cases F.isStatic <;> simp

theorem boundName_free {E : Env} {F : Func} (h : F.method = none) : boundName E F = pythonFunctionName F := by
  simp [boundName, Func.isStatic, h]

theorem block_function (E : Env) (F : Func) (h : F.method = none) : Block (opsOf E (.fn F)) (functionCode E F) := by
  unfold opsOf functionCode bindFunctionText
  refine block_post (block_pre ?_ (block_pre (block_signature E F false) ?_)) (.gap (.inl rfl))
  · have := block_comment E (F.qname ++ c!"(" ++ functionArguments E F ++ c!")") F.incl F.line
    simpa using this
  · apply block_overloads
    intro k
    have := is_overload E (.module (nsOf E F.qname F.name)) F k none (false || F.isVariadic) (fun _ _ => by simp [Func.isStatic, h]) false
      (fun _ e => by cases e)
    rw [boundName_free h] at this
    exact this

theorem zip_map_flatMap (l : List (Str × Str)) (f : Str × Str → Str) :
    ((l.map (·.1)).zip (l.map (·.2))).flatMap f = l.flatMap f := by
  induction l with
  | nil => rfl
  | cons a l ih => simp [ih]

/-- The lines of the enumerators, with the line end before instead of behind. -/
theorem enumerator_lines (head : Str) (l : List (Str × Str)) :
    (head ++ c!"\n" ++ l.flatMap enumeratorLine).dropLast = head ++ l.flatMap (fun v => c!"\n\t\t.value(\"" ++ v.1 ++ c!"\", " ++ v.2 ++ c!")") := by
  induction l generalizing head with
  | nil => simp
  | cons a l ih =>
    have := ih (head ++ c!"\n\t\t.value(\"" ++ a.1 ++ c!"\", " ++ a.2 ++ c!")")
    simp only [List.flatMap_cons, enumeratorLine, List.append_assoc, List.cons_append, List.nil_append] at this ⊢
    exact this

theorem is_enum (E : Env) (s : Scope) (e : EnumD) (t : Str) (ht : ∀ c ∈ t, c = '\n' ∨ c = ';') :
    (enumOp s e).Is (bindEnumText E s.text e ++ t) := by
  refine ⟨(if e.isScoped then [] else c!"pybind11::arithmetic(), ") ++ c!"\"" ++ docString e.comment ++ c!"\"" ++
    (if answer (moduleLocalRequested E.cfg (nsOf E e.qname e.name)) then c!", pybind11::module_local()" else []),
    e.enumerators.map (·.2), c!"\n\n" ++ t, ?_, by simp, ?_⟩
  · rw [zip_map_flatMap]
    unfold bindEnumText
    have := enumerator_lines (c!"\tpybind11::enum_<" ++ e.qname ++ c!">(" ++ s.text ++ c!", \"" ++ e.name ++ c!"\"" ++
      (if e.isScoped then [] else c!", pybind11::arithmetic()") ++ c!", \"" ++ docString e.comment ++ c!"\"" ++
      (if answer (moduleLocalRequested E.cfg (nsOf E e.qname e.name)) then c!", pybind11::module_local()" else []) ++ c!")") e.enumerators
    simp only [List.append_assoc, List.cons_append, List.nil_append] at this ⊢
    rw [this]
    cases e.isScoped <;> cases e.isScopedUsingClassTag <;> simp
  · intro c hc
    rcases List.mem_append.1 hc with h | h
    · simp at h; exact .inl h
    · exact ht c h

theorem block_enum (E : Env) (i : Nat) : Block (opsOf E (.enm i)) (enumCode E (E.enumD i)) := by
  unfold enumCode
  have h1 := block_comment E (stdName E (E.enumD i).qname) (E.enumD i).incl (E.enumD i).line
  have h2 := is_enum E (.module (nsOf E (E.enumD i).qname (E.enumD i).name)) (E.enumD i) c!";\n\n" (by simp)
  have := block_pre h1 (.call h2)
  unfold commentFor
  simpa [opsOf, Scope.text, moduleVariable] using this

/-! ## Members of classes -/

theorem is_init (q rest end_ sp t : Str) (h : ∀ c ∈ end_, c = '\n') (hsp : ∀ c ∈ sp, c = ' ')
    (ht : t = c!"\tcl.def(" ++ sp ++ c!"pybind11::init" ++ rest ++ c!");" ++ end_) : (Op.function (.type q) c!"__init__" true).Is t :=
  ⟨rest, end_, h, .inl ⟨sp, hsp, rfl, rfl, by simpa [Scope.text] using ht⟩⟩

theorem block_default (E : Env) (q : Str) (i : Nat) (t : Option Func) : Block [.function (.type q) c!"__init__" true] (defaultCtorText E i t) := by
  unfold defaultCtorText
  refine block_pre ?_ (.call ?_)
  · apply block_if
    intro _
    cases t with
    | none =>
      refine .gap (.inr (.inr (.inr (.inr (.inl ⟨c!"function-signature: " ++ classQualifiedName E (E.cls i) ++ c!"()", ?_⟩)))))
      simp
    | some F =>
      have := block_comment E (c!"function-signature: " ++ functionQualifiedName E F true ++ c!"(" ++ functionArguments E F ++ c!")") F.incl F.line
      simpa [signatureComment] using this
  · split
    · exact is_init q (c!"( " ++ newLambda [] [] (trampolineName E i) ++ c!" ) ") c!"\n" c!" " _ (by simp) (by simp) (by simp)
    split
    · exact is_init q (c!"( " ++ newLambda [] [] (classQualifiedName E (E.cls i)) ++ c!", " ++ newLambda [] [] (trampolineName E i) ++ c!" ) ")
        c!"\n" c!" " _ (by simp) (by simp) (by simp)
    · exact is_init q (c!"( " ++ newLambda [] [] (classQualifiedName E (E.cls i)) ++ c!" ) ") c!"\n" c!" " _ (by simp) (by simp) (by simp)

theorem block_copy (E : Env) (q : Str) (i : Nat) (t : Func) : Block (itemOps E i (.type q) (.copyCtor t)) (copyCtorText E i t) := by
  unfold copyCtorText
  refine block_pre (block_signature E t true) ?_
  have hc : ∀ x : Str, (Op.function (.type q) c!"__init__" true).Is
      (c!"\tcl.def( pybind11::init( " ++ newLambda (x ++ constBit t ++ c!" &o") c!"o" x ++ c!" ) );\n") := fun x =>
    is_init q (c!"( " ++ newLambda (x ++ constBit t ++ c!" &o") c!"o" x ++ c!" ) ") c!"\n" c!" " _ (by simp) (by simp) (by simp)
  unfold itemOps
  by_cases ht : trampoline E i
  · by_cases ha : (E.cls i).isAbstract
    · simp only [ht, ha, if_true, Bool.not_true, Bool.and_false, Bool.false_and, Bool.false_eq_true, if_false]
      exact .call (is_init q (c!"<" ++ trampolineName E i ++ constBit t ++ c!" &>()") c!"\n" [] _ (by simp) (by simp) (by simp))
    · simp only [ht, ha, if_true, Bool.not_false, Bool.true_and, if_false]
      by_cases hp : t.access == .pub
      · simp only [hp, if_true]
        exact .append (.call (hc _)) (.call (hc _))
      · simp only [hp, if_false]
        exact .append (.call (hc _)) .nil
  · simp only [ht, if_false, Bool.false_and]
    exact .call (hc _)

theorem block_ctor (E : Env) (q : Str) (i : Nat) (t : Func) : Block (itemOps E i (.type q) (.ctor t)) (ctorsText E i t) := by
  show Block ((arities (firstDefault t.params) t.params.length).map fun _ => Op.function (.type q) c!"__init__" true) _
  unfold ctorsText
  rw [List.map_eq_flatMap]
  apply block_flatMap
  intro k _
  unfold ctorText
  rw [List.append_assoc]
  refine block_pre (block_signature E t true) (.call ?_)
  split
  · exact is_init q (c!"<" ++ functionArguments E t ++ c!">()" ++ argAnnotations t k ++ c!" ") c!"\n\n" c!" " _ (by simp) (by simp) (by simp)
  · dsimp only
    split
    · exact is_init q (c!"( " ++ newLambda (if k ≠ 0 then (lambdaArguments E t k).1 else []) (lambdaArguments E t k).2 (trampolineName E i) ++
        c!" ), \"doc\"") c!"\n" c!" " _ (by simp) (by simp) (by simp)
    split
    · exact is_init q (c!"( " ++ newLambda (if k ≠ 0 then (lambdaArguments E t k).1 else []) (lambdaArguments E t k).2 (classQualifiedName E (E.cls i)) ++
        c!", " ++ newLambda (if k ≠ 0 then (lambdaArguments E t k).1 else []) (lambdaArguments E t k).2 (trampolineName E i) ++
        c!" ), \"doc\"") c!"\n" c!" " _ (by simp) (by simp) (by simp)
    · exact is_init q (c!"( " ++ newLambda (if k ≠ 0 then (lambdaArguments E t k).1 else []) (lambdaArguments E t k).2 (classQualifiedName E (E.cls i)) ++
        c!" ), \"doc\" " ++ argAnnotations t k) c!"\n" c!" " _ (by simp) (by simp) (by simp)

theorem block_item (E : Env) (q : Str) (i : Nat) (it : Item) : Block (itemOps E i (.type q) it) (itemText E i it) := by
  cases it with
  | implicitDefault => exact block_default E q i none
  | defaultCtor t => exact block_default E q i (some t)
  | copyCtor t => exact block_copy E q i t
  | ctor t => exact block_ctor E q i t
  | enum e =>
    refine block_pre (.gap (.inl rfl)) (.call ?_)
    have := is_enum E (.type q) (E.enumD e) [] (by simp)
    simpa [Scope.text] using this
  | field owner f =>
    refine .call ?_
    unfold itemText dataMemberText
    by_cases h : (f.ty.isConst || !fieldAssignable E f) = true
    · exact ⟨c!"readonly", c!"&" ++ stripAnonymous (classQualifiedName E (E.cls owner)) ++ c!"::" ++ f.name, .inl rfl, by simp [h, Scope.text]⟩
    · exact ⟨c!"readwrite", c!"&" ++ stripAnonymous (classQualifiedName E (E.cls owner)) ++ c!"::" ++ f.name, .inr rfl, by simp [h, Scope.text]⟩
  | method f parent lam =>
    unfold itemText itemOps bindFunctionText
    refine block_pre (block_signature E f false) ?_
    apply block_overloads
    intro k
    exact is_overload E (.type q) f k parent (lam || f.isVariadic) (fun _ e => by cases e) (!f.isStatic) (fun _ _ => rfl)
  | repr F =>
    refine .call ⟨"[](".toList ++ classQualifiedName E (E.cls i) ++ " const &o) -> std::string { std::ostringstream s;".toList ++
      (if (nsOf E F.qname F.name).length ≠ 0 then c!" using namespace " ++ nsOf E F.qname F.name ++ c!";" else []) ++
      c!" s << o; return s.str(); } ", c!"\n", by simp, .inr ⟨c!"\n", by simp, ?_⟩⟩
    simp [itemText, reprText, Scope.text]
  | addOn b => exact .call ⟨b, by simp [itemText, Scope.text]⟩

theorem is_class (E : Env) (outer : Str) (i : Nat) (h : (E.cls i).isAnonymous = false) :
    Block [.class_ (if (E.cls i).outer.isSome then .type outer else .module (nsOf E (E.cls i).qname (E.cls i).name)) (pythonClassName E (E.cls i))
      (classQualifiedName E (E.cls i)) ((boundBases E (E.cls i)).map fun j => classQualifiedName E (E.cls j))] (classStatement E i) := by
  unfold classStatement
  simp only [List.append_assoc]
  refine block_pre ?_ ?_
  · apply block_if
    intro _
    exact .gap (.inr (.inr (.inr (.inr (.inr (.inr (.inl ⟨classQualifiedName E (E.cls i) ++ c!" " ++ holderText E i, by simp⟩)))))))
  · refine .call ⟨holderText E i ++ (if trampoline E i then c!", " ++ callbackName E i else []), c!"\"" ++ docString (E.cls i).comment ++ c!"\"" ++
      (if answer (moduleLocalRequested E.cfg (nsOf E (E.cls i).qname (E.cls i).name)) then c!", pybind11::module_local()" else []) ++
      (if bufferProtocolRequested E.cfg (stdName E (E.cls i).qname) then c!", pybind11::buffer_protocol()" else []), ?_⟩
    rw [List.flatMap_map]
    unfold isEnclosed Record.isMember moduleVariable
    rw [h]
    cases (E.cls i).outer.isSome <;> simp

theorem block_class (E : Env) (n : Nat) (outer : Str) (i : Nat) : Block (classOpsF E n (.type outer) i) (bindClassTextF E n i).code := by
  induction n generalizing outer i with
  | zero => exact .nil
  | succ n ih =>
    unfold classOpsF bindClassTextF
    dsimp only
    by_cases hb : builtinDecl E (E.cls i).qname
    · simp only [hb, if_true]; exact .nil
    simp only [hb, if_false]
    cases hx : E.cfg.binders (stdName E (E.cls i).qname) with
    | some b =>
      simp only [Option.isSome_some, if_true]
      unfold bindWithText
      have h1 := block_comment E (stdName E (E.cls i).qname) (E.cls i).incl (E.cls i).line
      have h2 : (Op.binder (nsOf E (E.cls i).qname (E.cls i).name) (classQualifiedName E (E.cls i))).Is (c!"\t" ++ b ++ stdName E (classTemplateText (E.cls i)) ++ c!"(" ++
          moduleVariable (nsOf E (E.cls i).qname (E.cls i).name) ++
          ((E.cls i).targs.getD []).flatMap (fun a => c!", \"" ++ fixBooleanTypes (mangleTypeName (stdName E a.text) true) ++ c!"\"") ++ c!");\n\n") :=
        ⟨b ++ stdName E (classTemplateText (E.cls i)), ((E.cls i).targs.getD []).flatMap
          (fun a => c!", \"" ++ fixBooleanTypes (mangleTypeName (stdName E a.text) true) ++ c!"\""), by simp [moduleVariable]⟩
      have := block_pre h1 (.call h2)
      unfold commentFor
      simpa using this
    | none =>
      simp only [Option.isSome_none, Bool.false_eq_true, if_false]
      apply Block.indented
      obtain ⟨sc, hs⟩ : ∃ sc, (if (E.cls i).isAnonymous then Scope.type outer else .type (classQualifiedName E (E.cls i))) = .type sc := by
        split <;> exact ⟨_, rfl⟩
      rw [hs]
      refine block_post (.append (.append ?_ ?_) ?_) (.gap (.inr (.inl rfl)))
      · unfold classHead
        simp only [List.append_assoc]
        have h1 : Block [] (c!"{ " ++ commentFor E (E.cls i).qname (E.cls i).incl (E.cls i).line) := by
          obtain ⟨r, hr⟩ := fileLine_eq E (E.cls i).incl (E.cls i).line
          unfold commentFor
          rw [hr]
          exact .gap (.inr (.inr (.inr (.inr (.inr (.inl ⟨stdName E (E.cls i).qname ++ r, by simp⟩))))))
        rw [← List.append_assoc]
        refine block_pre h1 (block_pre (block_if fun _ => .gap (.inr (.inr (.inr (.inl rfl))))) ?_)
        cases ha : (E.cls i).isAnonymous with
        | true => exact .nil
        | false => simp only [Bool.not_false, if_true, Bool.false_eq_true, if_false]; exact is_class E outer i ha
      · exact block_flatMap _ _ _ fun it _ => block_item E _ i it
      · have key : Block ((nestedBound E (E.cls i)).flatMap (classOpsF E n (.type sc)))
            (((nestedBound E (E.cls i)).map (bindClassTextF E n)).flatMap fun o => o.code ++ c!"\n") := by
          rw [List.flatMap_map]
          exact block_flatMap _ _ _ fun j _ => block_post (ih _ j) (.gap (.inl rfl))
        generalize ((nestedBound E (E.cls i)).map (bindClassTextF E n)).flatMap (fun o => o.code ++ c!"\n") = t at key
        cases t.isEmpty with
        | true => exact key
        | false => exact block_pre (.gap (.inl rfl)) key

end Binder
