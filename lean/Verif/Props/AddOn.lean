import Verif.Props.OriginNested

/-!
# C122: the functions that the user wrote for a class are called
-/

namespace Binder

open Cxx Spec

/-- The text of a class has the lines of the members of all classes that it registers. -/
theorem class_has_line {E : Env} {k : Nat} {x : Str} (hx : '\n' ∉ x) (hne : x ≠ []) (hown : E.cfg.binders (stdName E (E.cls k).qname) = none)
    (hin : x ++ c!"\n" <:+: (classItems E k).flatMap (itemText E k)) : ∀ (n i : Nat), k ∈ registersF E n i → x ++ c!"\n" <:+: (bindClassTextF E n i).code := by
  intro n
  induction n with
  | zero => intro i h; cases h
  | succ n ih =>
    intro i h
    unfold registersF at h
    cases hb : builtinDecl E (E.cls i).qname with
    | true => rw [hb, if_pos rfl] at h; cases h
    | false =>
      rw [hb, if_neg Bool.false_ne_true] at h
      cases he : E.cfg.binders (stdName E (E.cls i).qname) with
      | some b =>
        rw [he, if_pos (by rfl)] at h
        obtain rfl := List.mem_singleton.1 h
        rw [hown] at he
        cases he
      | none =>
        rw [he, if_neg (by simp)] at h
        rw [class_code_own hb he]
        apply indent_keeps_infix hx hne
        rcases List.mem_append.1 h with h | h
        · obtain rfl : k = i := by
            split at h
            · cases h
            · exact List.mem_singleton.1 h
          rw [List.append_assoc (classHead E k ++ _)]
          exact infix_in hin
        · obtain ⟨j, hj, hk⟩ := List.mem_flatMap.1 h
          have hy := ih j hk
          have up : x ++ c!"\n" <:+: ((nestedBound E (E.cls i)).map (bindClassTextF E n)).flatMap fun o => o.code ++ c!"\n" := by
            rw [List.flatMap_map]
            obtain ⟨a, b, e⟩ := List.append_of_mem hj
            rw [e, List.flatMap_append, List.flatMap_cons]
            exact hy.trans ⟨a.flatMap (fun j => (bindClassTextF E n j).code ++ c!"\n"),
              c!"\n" ++ b.flatMap (fun j => (bindClassTextF E n j).code ++ c!"\n"), by simp only [List.append_assoc]⟩
          apply infix_in
          split
          · exact up
          · exact up.trans (List.suffix_append _ _).isInfix

/-- **C122.** If the configuration has `+add_on_binder` for a class, by its normalised name, then the binding of the class, wherever it is in
the sources, has a line that calls the function of the user with the Python class; if it has `+binder`, the function of the user is called
with the module and the arguments of the template instead. -/
theorem C122_called (U : TransUnit) (o : Opts) (fs fs' : FS) (hw : fs.WF) (hn : U.visits.length + 1 < 2 ^ 32) (hd : DistinctNames U o)
    (h : U.Ends o fs (.done fs')) :
    ∃ srcs, Generated U o fs fs' srcs ∧
      (∀ k ∈ registered U.E srcs, ∀ f, U.E.cfg.binders (stdName U.E (U.E.cls k).qname) = none →
        U.E.cfg.addOnBinders (stdName U.E (U.E.cls k).qname) = some f → '\n' ∉ f →
        ∃ s ∈ srcs, "\t".toList ++ f ++ "(cl);\n".toList <:+: s.text U.E) ∧
      (∀ s ∈ srcs, ∀ k, Visit.cls k ∈ s.bound → ∀ f, U.E.cfg.binders (stdName U.E (U.E.cls k).qname) = some f →
        ∃ comment, bindingOf U.E (.cls k) = "\t".toList ++ comment ++ "\t".toList ++ f ++ stdName U.E (classTemplateText (U.E.cls k)) ++ "(".toList ++
          moduleVariable (namespaceOf U.E (.cls k)) ++
          ((U.E.cls k).targs.getD []).flatMap (fun a => ", \"".toList ++ fixBooleanTypes (mangleTypeName (stdName U.E a.text) true) ++ "\"".toList) ++
          ");\n\n".toList) := by
  obtain ⟨srcs, hg⟩ := C69_exactly_once U o fs fs' hw hn hd h
  have l : "\t".toList = c!"\t" ∧ "(cl);\n".toList = c!"(cl);\n" ∧ "(".toList = c!"(" ∧ ", \"".toList = c!", \"" ∧ "\"".toList = c!"\"" ∧
    ");\n\n".toList = c!");\n\n" := by decide +kernel
  obtain ⟨l1, l2, l3, l4, l5, l6⟩ := l
  refine ⟨srcs, hg, fun k hk f hb hf hnl => ?_, fun s hs k hk f hf => ?_⟩
  · obtain ⟨v, hv, hk⟩ := List.mem_flatMap.1 hk
    obtain ⟨s, hs, hv⟩ := List.mem_flatMap.1 hv
    refine ⟨s, hs, ?_⟩
    obtain ⟨a, b, e⟩ := source_has_binding (E := U.E) hv
    rw [e, l1, l2]
    have hin : (c!"\t" ++ f ++ c!"(cl);") ++ c!"\n" <:+: (classItems U.E k).flatMap (itemText U.E k) := by
      unfold classItems addOnItems
      rw [hf, List.flatMap_append]
      simp only [List.flatMap_cons, List.flatMap_nil, List.append_nil, itemText]
      generalize List.flatMap (itemText U.E k) _ = z
      exact ⟨z ++ c!"\n", [], by simp only [List.append_assoc, List.cons_append, List.nil_append, List.append_nil]⟩
    have hl : '\n' ∉ c!"\t" ++ f ++ c!"(cl);" := by
      simp only [List.mem_append, not_or]
      exact ⟨⟨by decide, hnl⟩, by decide⟩
    cases v with
    | fn F => cases hk
    | enm i => cases hk
    | cls i =>
      have := class_has_line hl (by simp) hb hin _ _ hk
      have e2 : c!"\t" ++ f ++ c!"(cl);\n" = (c!"\t" ++ f ++ c!"(cl);") ++ c!"\n" := by simp only [List.append_assoc, List.cons_append, List.nil_append]
      rw [e2]
      exact infix_in this
  · have hr := ((hg.exactly (.cls k)).1 (List.mem_flatMap.2 ⟨s, hs, hk⟩)).1
    have hb : builtinDecl U.E (U.E.cls k).qname = false := by
      cases h : builtinDecl U.E (U.E.cls k).qname with
      | false => rfl
      | true => exact absurd h hr.allowed.notConverted
    refine ⟨commentFor U.E (U.E.cls k).qname (U.E.cls k).incl (U.E.cls k).line, ?_⟩
    rw [l1, l3, l4, l5, l6]
    exact class_code_with hb hf

/-- The program of `Ex.unit` with `+add_on_binder n::A user::extend` and `+binder n::B user::bind`. -/
def Ex.userBinders : TransUnit :=
  { Ex.unit with env := { Ex.unit.env with cfg := { Ex.unit.env.cfg with
      addOnBinders := fun s => if s = c!"n::A" then some c!"user::extend" else none
      binders := fun s => if s = c!"n::B" then some c!"user::bind" else none } } }

/-- A run to which `C122_called` applies, and the two calls. -/
example : ∃ fs', Ex.userBinders.Ends (Ex.opts 1000 false true) Ex.fsEmpty (.done fs') ∧
    ∃ srcs, Generated Ex.userBinders (Ex.opts 1000 false true) Ex.fsEmpty fs' srcs ∧
      Ex.userBinders.E.cfg.addOnBinders (stdName Ex.userBinders.E (Ex.userBinders.E.cls 0).qname) = some c!"user::extend" ∧
      Ex.userBinders.E.cfg.binders (stdName Ex.userBinders.E (Ex.userBinders.E.cls 1).qname) = some c!"user::bind" ∧
      c!"\n\t\tuser::extend(cl);\n\t}\n" <:+: bindingOf Ex.userBinders.E (.cls 0) ∧
      c!"\tuser::bind(M(\"n\"));\n" <:+: bindingOf Ex.userBinders.E (.cls 1) := by
  obtain ⟨fs', h, _⟩ : ∃ fs', Ex.userBinders.Ends (Ex.opts 1000 false true) Ex.fsEmpty (.done fs') ∧ (fun _ => true) fs' = true :=
    Ex.ends_after (n := 20) (by decide +kernel)
  obtain ⟨srcs, hg, -⟩ := C122_called Ex.userBinders (Ex.opts 1000 false true) Ex.fsEmpty fs' Ex.fsEmpty_wf (by decide) (.inr (.inl rfl)) h
  exact ⟨fs', h, srcs, hg, by decide +kernel, by decide +kernel, by decide +kernel, by decide +kernel⟩

end Binder
