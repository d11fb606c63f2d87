import Verif.Lemmas.StlBinders
import Verif.Lemmas.Standard
import Verif.Model.Simplify
import Verif.Props.Function

/-!
# C82: names of the classes made by the shipped binders

`+binder std::vector binder::vector_binder` and `+binder std::map binder::map_binder` leave the binding of vectors and maps to templates
that come with the program. The Python name of such a class is made when the module is imported, from the texts in the statement.
-/

namespace Binder

open Cxx Spec

variable {E : Env}

/-- **C82, statement.** The code of a class with a `+binder` is one statement; it passes the binder the module and the texts from which
`shippedName` makes the name. -/
theorem C82_statement {i : Nat} {b : Str} (hb : E.cfg.binders (stdName E (E.cls i).qname) = some b)
    (hn : builtinDecl E (E.cls i).qname = false) :
    (classOutput E i).code = c!"\t" ++ commentFor E (E.cls i).qname (E.cls i).incl (E.cls i).line ++ c!"\t" ++ b ++
      stdName E (classTemplateText (E.cls i)) ++ c!"(" ++ c!"M(\"" ++ nsOf E (E.cls i).qname (E.cls i).name ++ c!"\")" ++
      (((E.cls i).targs.getD []).map (binderArgument E)).flatMap (fun a => c!", \"" ++ a ++ c!"\"") ++ c!");\n\n" := by
  simp [classOutput, bindClassTextF, hb, hn, bindWithText, binderArgument, List.flatMap_map, moduleVariable]

theorem Spec.SimpleTypeName.noTemplate {s : Str} (h : SimpleTypeName s) : mangleIsTemplate s = false := by
  rw [mangleIsTemplate, List.any_eq_false]
  intro c hc
  rcases h.chars c hc with hi | rfl | rfl
  · simp only [Bool.or_eq_true, beq_iff_eq]
    rintro ((rfl | rfl) | rfl) <;> revert hi <;> decide
  · decide
  · decide

theorem Spec.SimpleTypeName.start {s : Str} (h : SimpleTypeName s) : ∃ c, s.head? = some c ∧ isMangleSep c = false :=
  let ⟨c, hc, hi⟩ := h.starts
  ⟨c, hc, identChar_not_sep hi⟩

theorem Spec.SimpleTypeName.last {s : Str} (h : SimpleTypeName s) : ∃ c, (mangleLoop [] s).getLast? = some c ∧ alnumOpt (some c) = true :=
  let ⟨c, hc, hi, hu⟩ := h.ends
  ⟨c, mangleLoop_last hc (identChar_not_sep hi) _, identChar_alnumOpt hi hu⟩

theorem Spec.SimpleTypeName.clean {s : Str} (h : SimpleTypeName s) : ∀ c ∈ mangleLoop [] s, IdentChar c = true := by
  intro c hc
  rcases mem_mangleLoop hc with hm | rfl | ⟨hm, hs⟩
  · simp at hm
  · decide
  · rcases h.chars c hm with hi | rfl | rfl
    · exact hi
    · exact absurd hs (by decide)
    · exact absurd hs (by decide)

/-- The text passed for an argument with a simple name. -/
theorem binderArgument_simple {a : TArg} (h : SimpleTypeName (stdName E a.text)) :
    binderArgument E a = fixBooleanTypes (mangleLoop [] (stdName E a.text)) := by
  simp [binderArgument, mangleTypeName, h.noTemplate]

theorem replace_marks {s : Str} (h : ∀ c ∈ s, IdentChar c = true) :
    replaceAll (replaceAll s c!"*" c!"_star_") c!"&" c!"_ref_" = s := by
  have no : ∀ d : Char, IdentChar d = false → ¬ [d] <:+: s := by
    intro d hd ⟨a, b, e⟩
    have := h d (by rw [← e]; simp)
    rw [hd] at this; cases this
  rw [replaceAll_none _ (no _ (by decide)), replaceAll_none _ (no _ (by decide))]

/-- A text that ends with a letter or digit, followed by the end of a template. -/
theorem mangleLoop_close {r gap : Str} (hr : ∃ c, r.getLast? = some c ∧ alnumOpt (some c) = true) (hg : gap = [] ∨ gap = c!" ") :
    mangleLoop r (c!">" ++ gap ++ c!">") = r ++ c!"_" ∧ mangleLoop r c!">" = r ++ c!"_" := by
  obtain ⟨c, hc, ha⟩ := hr
  have hne : c ≠ '_' := by rintro rfl; revert ha; decide
  have h1 : mangleLoop r c!">" = r ++ c!"_" := by
    simp [mangleLoop, hc, hne, isMangleSep]
  refine ⟨?_, h1⟩
  rw [List.append_assoc, mangleLoop_split, h1]
  rcases hg with rfl | rfl <;> simp [mangleLoop, isMangleSep]

/-- The comparator is recognised. -/
theorem comparator_text {k c : TArg} (hk : SimpleTypeName (stdName E k.text)) (hc : stdName E c.text = lessOf (stdName E k.text)) :
    binderArgument E c = c!"std_less_" ++ binderArgument E k ++ c!"_t" := by
  rw [binderArgument_simple hk]
  generalize hK : stdName E k.text = K at *
  unfold binderArgument mangleTypeName
  rw [hc]
  have ht : mangleIsTemplate (lessOf K) = true := by simp [mangleIsTemplate, lessOf]
  have hm : mangleLoop [] (lessOf K) = c!"std_less_" ++ mangleLoop [] K ++ c!"_" := by
    unfold lessOf
    rw [mangleLoop_split, mangleLoop_split, (by decide : mangleLoop [] c!"std::less<" = c!"std_less_"), mangleLoop_start hk.start,
      (mangleLoop_close (gap := []) _ (.inl rfl)).2]
    obtain ⟨c, h1, h2⟩ := hk.last
    exact ⟨c, by rw [List.getLast?_append, h1]; rfl, h2⟩
  simp only [ht, Bool.and_self, if_true, hm]
  rw [replace_marks, List.append_assoc, List.append_assoc]
  · have e1 : c!"std_less_" ++ (mangleLoop [] K ++ (c!"_" ++ ['t'])) = c!"std_less" ++ '_' :: (mangleLoop [] K ++ '_' :: c!"t") := by simp
    rw [e1, fixBool_append_underscore ⟨'s', by decide, by decide⟩, fixBool_append_underscore hk.last]
    have e2 : fixBooleanTypes c!"std_less" = c!"std_less" := by decide
    have e3 : fixBooleanTypes c!"t" = c!"t" := by decide
    rw [e2, e3]; simp
  · intro c hc
    simp only [List.mem_append] at hc
    rcases hc with (hc | hc) | hc
    · revert c; decide
    · exact hk.clean c hc
    · revert c; decide

/-- The allocator is recognised. -/
theorem allocator_text {k v a : TArg} {gap : Str} (hg : gap = [] ∨ gap = c!" ") (hk : SimpleTypeName (stdName E k.text))
    (hv : SimpleTypeName (stdName E v.text)) (ha : stdName E a.text = mapAllocatorOf (stdName E k.text) (stdName E v.text) gap) :
    binderArgument E a = c!"std_allocator_std_pair_const_" ++ binderArgument E k ++ c!"_" ++ binderArgument E v ++ c!"_t" := by
  rw [binderArgument_simple hk, binderArgument_simple hv]
  generalize hK : stdName E k.text = K at *
  generalize hV : stdName E v.text = V at *
  unfold binderArgument mangleTypeName
  rw [ha]
  have ht : mangleIsTemplate (mapAllocatorOf K V gap) = true := by simp [mangleIsTemplate, mapAllocatorOf]
  have hm : mangleLoop [] (mapAllocatorOf K V gap) =
      c!"std_allocator_std_pair_const_" ++ mangleLoop [] K ++ c!"_" ++ mangleLoop [] V ++ c!"_" := by
    unfold mapAllocatorOf
    obtain ⟨c, h1, h2⟩ := hk.last
    obtain ⟨d, h3, h4⟩ := hv.last
    have hne : c ≠ '_' := by rintro rfl; revert h2; decide
    have comma : ∀ r : Str, (r ++ mangleLoop [] K).getLast? = some c →
        mangleLoop (r ++ mangleLoop [] K) c!", " = r ++ mangleLoop [] K ++ c!"_" := by
      intro r hr
      simp [mangleLoop, isMangleSep, hr, hne]
    have e : c!"std::allocator<std::pair<const " ++ K ++ c!", " ++ V ++ c!">" ++ gap ++ c!">" =
        c!"std::allocator<std::pair<const " ++ K ++ c!", " ++ V ++ (c!">" ++ gap ++ c!">") := by simp
    rw [e, mangleLoop_split _ _ (c!">" ++ gap ++ c!">"), mangleLoop_split _ _ V, mangleLoop_split _ _ c!", ", mangleLoop_split _ _ K,
      (by decide : mangleLoop [] c!"std::allocator<std::pair<const " = c!"std_allocator_std_pair_const_"),
      mangleLoop_start hk.start, comma, mangleLoop_start hv.start, (mangleLoop_close _ hg).1]
    · exact ⟨d, by rw [List.getLast?_append, h3]; rfl, h4⟩
    · rw [List.getLast?_append, h1]; rfl
  simp only [ht, Bool.and_self, if_true, hm]
  rw [replace_marks]
  · have e1 : c!"std_allocator_std_pair_const_" ++ mangleLoop [] K ++ c!"_" ++ mangleLoop [] V ++ c!"_" ++ ['t'] =
        c!"std_allocator_std_pair_const" ++ '_' :: (mangleLoop [] K ++ '_' :: (mangleLoop [] V ++ '_' :: c!"t")) := by simp
    rw [e1, fixBool_append_underscore ⟨'t', by decide, by decide⟩, fixBool_append_underscore hk.last, fixBool_append_underscore hv.last]
    have e2 : fixBooleanTypes c!"std_allocator_std_pair_const" = c!"std_allocator_std_pair_const" := by decide
    have e3 : fixBooleanTypes c!"t" = c!"t" := by decide
    rw [e2, e3]; simp
  · intro c hc
    simp only [List.mem_append] at hc
    rcases hc with (((hc | hc) | hc) | hc) | hc
    · revert c; decide
    · exact hk.clean c hc
    · revert c; decide
    · exact hv.clean c hc
    · revert c; decide

/-- **C82, part.** A map with the default comparator and the default allocator whose key and value are no template instances, pointers or
references is called `map_<key>_<value>`: the default arguments are recognised and left out. Missing: other keys and values, see
`C82_template_key_false`, `C82_underscore_false`. -/
theorem C82_default_map_partial {C : Record} {k v c a : TArg} {gap : Str} (hC : C.targs = some [k, v, c, a])
    (hk : SimpleTypeName (stdName E k.text)) (hv : SimpleTypeName (stdName E v.text)) (hc : stdName E c.text = lessOf (stdName E k.text))
    (hg : gap = [] ∨ gap = c!" ") (ha : stdName E a.text = mapAllocatorOf (stdName E k.text) (stdName E v.text) gap) :
    shippedName E c!"binder::map_binder" C = some (c!"map_" ++ binderArgument E k ++ c!"_" ++ binderArgument E v) := by
  simp [shippedName, hC, mapBinderName, mapBinderExtra, comparator_text hk hc, allocator_text hg hk hv ha]

theorem Spec.Word.simple {s : Str} (h : Word s) : SimpleTypeName s where
  chars c hc := .inl (h.chars c hc).1
  starts := by
    cases s with
    | nil => exact absurd rfl h.nonempty
    | cons c s => exact ⟨c, rfl, (h.chars c (by simp)).1⟩
  ends := by
    refine ⟨s.getLast h.nonempty, List.getLast?_eq_some_getLast h.nonempty, h.chars _ (List.getLast_mem _)⟩

theorem Spec.Word.argument {a : TArg} (h : Word (stdName E a.text)) : binderArgument E a = stdName E a.text := by
  rw [binderArgument_simple h.simple, mangleLoop_plain _ _ fun c hc => identChar_not_sep (h.chars c hc).1, List.nil_append]
  exact fixBool_no_underscore _ fun hm => (h.chars _ hm).2 rfl

/-- **C82, part.** Two such maps of types whose names are plain words have the same Python name only if key and value are the same.
Missing: other names, see `C82_same_map_name_false`. -/
theorem C82_distinct_maps_partial {C C' : Record} {k v c a k' v' c' a' : TArg} {gap gap' : Str} (hC : C.targs = some [k, v, c, a])
    (hC' : C'.targs = some [k', v', c', a']) (hk : Word (stdName E k.text)) (hv : Word (stdName E v.text)) (hk' : Word (stdName E k'.text))
    (hv' : Word (stdName E v'.text)) (hc : stdName E c.text = lessOf (stdName E k.text)) (hc' : stdName E c'.text = lessOf (stdName E k'.text))
    (hg : gap = [] ∨ gap = c!" ") (hg' : gap' = [] ∨ gap' = c!" ")
    (ha : stdName E a.text = mapAllocatorOf (stdName E k.text) (stdName E v.text) gap)
    (ha' : stdName E a'.text = mapAllocatorOf (stdName E k'.text) (stdName E v'.text) gap')
    (h : shippedName E c!"binder::map_binder" C = shippedName E c!"binder::map_binder" C') :
    stdName E k.text = stdName E k'.text ∧ stdName E v.text = stdName E v'.text := by
  rw [C82_default_map_partial hC hk.simple hv.simple hc hg ha, C82_default_map_partial hC' hk'.simple hv'.simple hc' hg' ha',
    hk.argument, hv.argument, hk'.argument, hv'.argument] at h
  simp only [Option.some.injEq, List.append_assoc] at h
  have h := List.append_cancel_left h
  have key : ∀ (x y x' y' : Str), '_' ∉ x → '_' ∉ x' → x ++ (c!"_" ++ y) = x' ++ (c!"_" ++ y') → x = x' ∧ y = y' := by
    intro x
    induction x with
    | nil =>
      intro y x' y' _ hx' e
      cases x' with
      | nil => simpa using e
      | cons d x' => simp at e hx'; exact absurd e.1 hx'.1
    | cons d x ih =>
      intro y x' y' hx hx' e
      cases x' with
      | nil => simp at e hx; exact absurd e.1.symm hx.1
      | cons d' x' =>
        simp only [List.cons_append, List.cons.injEq, List.mem_cons, not_or] at e hx hx'
        obtain ⟨h1, h2⟩ := ih y x' y' hx.2 hx'.2 e.2
        exact ⟨by rw [e.1, h1], h2⟩
  exact key _ _ _ _ (fun hm => (hk.chars _ hm).2 rfl) (fun hm => (hk'.chars _ hm).2 rfl) h

/-- **C82, part.** Two vectors have the same Python name exactly if the texts of their element types are the same; for element types whose
names are plain words, if these are the same. Missing: vectors with other allocators, see `C82_same_vector_name_false`. -/
theorem C82_vector_partial {C C' : Record} {t a t' a' : TArg} (hC : C.targs = some [t, a]) (hC' : C'.targs = some [t', a']) :
    shippedName E c!"binder::vector_binder" C = some (c!"vector_" ++ binderArgument E t) ∧
    (shippedName E c!"binder::vector_binder" C = shippedName E c!"binder::vector_binder" C' ↔ binderArgument E t = binderArgument E t') ∧
    (Word (stdName E t.text) → Word (stdName E t'.text) →
      (shippedName E c!"binder::vector_binder" C = shippedName E c!"binder::vector_binder" C' ↔ stdName E t.text = stdName E t'.text)) := by
  have h1 : (shippedName E c!"binder::vector_binder" C = shippedName E c!"binder::vector_binder" C' ↔
      binderArgument E t = binderArgument E t') := by simp [shippedName, hC, hC', vectorBinderName]
  refine ⟨by simp [shippedName, hC, vectorBinderName], h1, fun w w' => ?_⟩
  rw [h1, w.argument, w'.argument]

namespace Ex

/-- The program's own simplification of names. -/
def stlEnv : Env := { exampleEnv with simplify := simplifyStd }

/-- A class of `std` with the given template arguments. -/
def stdClass (name : Str) (args : List Str) : Record :=
  { exampleRecord with name := name, qname := c!"std::" ++ name, targs := some (args.map fun a => ⟨a, .type (.basic 0)⟩) }

/-- A map with the default arguments. -/
def mapOf (k v : Str) : Record := stdClass c!"map" [k, v, lessOf k, mapAllocatorOf k v c!" "]

/-- A vector with the default allocator. -/
def vectorOf (t : Str) : Record := stdClass c!"vector" [t, allocatorOf t]

end Ex

open Ex

/-- The hypotheses of `C82_statement` are met: `std::map<A, int>` with the shipped binder. -/
example : let E : Env := { stlEnv with cls := fun _ => mapOf c!"A" c!"int",
                                       cfg := { binders := fun n => if n = c!"std::map" then some c!"binder::map_binder" else none } }
    E.cfg.binders (stdName E (E.cls 0).qname) = some c!"binder::map_binder" ∧ builtinDecl E (E.cls 0).qname = false ∧
    (classOutput E 0).code = c!"\t// std::map file:a.h line:2\n\tbinder::map_binder<A,int,std::less<A>,std::allocator<std::pair<const A, int> >>(M(\"std\"), \"A\", \"int\", \"std_less_A_t\", \"std_allocator_std_pair_const_A_int_t\");\n\n" :=
  ⟨by decide +kernel, by decide +kernel, by decide +kernel⟩

/-- The hypotheses of `C82_default_map_partial` are met by `std::map<n::A, unsigned int>`. -/
example : SimpleTypeName (stdName stlEnv c!"n::A") ∧ SimpleTypeName (stdName stlEnv c!"unsigned int") ∧
    stdName stlEnv (lessOf c!"n::A") = lessOf (stdName stlEnv c!"n::A") ∧
    stdName stlEnv (mapAllocatorOf c!"n::A" c!"unsigned int" c!" ") = mapAllocatorOf (stdName stlEnv c!"n::A") (stdName stlEnv c!"unsigned int") c!" " ∧
    shippedName stlEnv c!"binder::map_binder" (mapOf c!"n::A" c!"unsigned int") = some c!"map_n_A_unsigned_int" := by
  refine ⟨⟨?_, ⟨'n', by decide +kernel, by decide⟩, ⟨'A', by decide +kernel, by decide, by decide⟩⟩,
    ⟨?_, ⟨'u', by decide +kernel, by decide⟩, ⟨'t', by decide +kernel, by decide, by decide⟩⟩, by decide +kernel, by decide +kernel, by decide +kernel⟩
  · have : stdName stlEnv c!"n::A" = c!"n::A" := by decide +kernel
    rw [this]; decide
  · have : stdName stlEnv c!"unsigned int" = c!"unsigned int" := by decide +kernel
    rw [this]; decide

/-- The hypotheses of `C82_distinct_maps_partial` are met by `std::map<A, B>` and `std::map<B, A>`. -/
example : Word (stdName stlEnv c!"A") ∧ Word (stdName stlEnv c!"B") ∧
    shippedName stlEnv c!"binder::map_binder" (mapOf c!"A" c!"B") = some c!"map_A_B" ∧
    shippedName stlEnv c!"binder::map_binder" (mapOf c!"B" c!"A") = some c!"map_B_A" := by
  have h1 : stdName stlEnv c!"A" = c!"A" := by decide +kernel
  have h2 : stdName stlEnv c!"B" = c!"B" := by decide +kernel
  rw [h1, h2]
  exact ⟨⟨by decide, by decide⟩, ⟨by decide, by decide⟩, by decide +kernel, by decide +kernel⟩

/-- **C82 fails** for keys that are template instances: the default comparator and allocator of `std::map<P<int>, int>` are not recognised
and become part of the name. -/
theorem C82_template_key_false : shippedName stlEnv c!"binder::map_binder" (mapOf c!"P<int>" c!"int") =
    some c!"map_P_int_t_int_std_less_P_int_t_std_allocator_std_pair_const_P_int_int_t" := by decide +kernel

/-- **C82 fails** for names that end with an underscore. -/
theorem C82_underscore_false : shippedName stlEnv c!"binder::map_binder" (mapOf c!"A_" c!"int") =
    some c!"map_A__int_std_less_A_t_std_allocator_std_pair_const_A_int_t" := by decide +kernel

/-- **C82 fails**: different vectors, here of `int` with two allocators, have the same Python name. -/
theorem C82_same_vector_name_false : ∃ C C' : Record, C.qname = c!"std::vector" ∧ C'.qname = c!"std::vector" ∧
    C.targs.map (·.map TArg.text) = some [c!"int", c!"std::allocator<int>"] ∧ C'.targs.map (·.map TArg.text) = some [c!"int", c!"Pool<int>"] ∧
    shippedName stlEnv c!"binder::vector_binder" C = some c!"vector_int" ∧
    shippedName stlEnv c!"binder::vector_binder" C' = some c!"vector_int" :=
  ⟨vectorOf c!"int", stdClass c!"vector" [c!"int", c!"Pool<int>"], by decide +kernel, by decide +kernel, by decide +kernel, by decide +kernel,
    by decide +kernel, by decide +kernel⟩

/-- **C82 fails**: the maps from `a::b` to `c` and from `a` to `b::c` have the same Python name. -/
theorem C82_same_map_name_false : shippedName stlEnv c!"binder::map_binder" (mapOf c!"a::b" c!"c") = some c!"map_a_b_c" ∧
    shippedName stlEnv c!"binder::map_binder" (mapOf c!"a" c!"b::c") = some c!"map_a_b_c" :=
  ⟨by decide +kernel, by decide +kernel⟩

/-- **C82 fails**: the name of a vector of pointers is no identifier. -/
theorem C82_pointer_false : shippedName stlEnv c!"binder::vector_binder" (vectorOf c!"A *") = some c!"vector_A_*" := by decide +kernel

end Binder
