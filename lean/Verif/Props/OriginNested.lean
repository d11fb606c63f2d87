import Verif.Props.Origin

/-!
# C121: the classes inside of classes say where they come from as well
-/

namespace Binder

open Cxx Spec

theorem indent_blank {rest ind : Str} : indent (c!"\n" ++ rest) ind = c!"\n" ++ indent rest ind := by
  have h1 : c!"\n" ++ rest = [] ++ '\n' :: rest := rfl
  rw [indent_eq_terminated, indent_eq_terminated, h1, split, splitGo_terminated_aux _ _ _ _ List.not_mem_nil, split]
  simp only [List.map_cons, List.append_nil, terminated, if_true]
  rfl

/-- Indenting keeps the end of a line, if it is not empty. -/
theorem indent_keeps {x ind : Str} (hx : '\n' ∉ x) (hne : x ≠ []) (b : Str) : ∀ (n : Nat) (a : Str), a.length ≤ n →
    x ++ c!"\n" <:+: indent (a ++ (x ++ c!"\n") ++ b) ind := by
  intro n
  induction n with
  | zero =>
    intro a ha
    obtain rfl := List.length_eq_zero_iff.1 (Nat.le_zero.1 ha)
    rw [List.nil_append, indent_line hx hne]
    exact ⟨ind, indent b ind, by simp only [List.append_assoc]⟩
  | succ n ih =>
    intro a ha
    by_cases hm : '\n' ∈ a
    · obtain ⟨l, a', rfl, hl⟩ := List.eq_append_cons_of_mem hm
      have hlen : a'.length ≤ n := by
        rw [List.length_append, List.length_cons] at ha
        omega
      obtain ⟨p, q, e⟩ := ih a' hlen
      have e1 : l ++ '\n' :: a' ++ (x ++ c!"\n") ++ b = l ++ c!"\n" ++ (a' ++ (x ++ c!"\n") ++ b) := by
        simp only [List.append_assoc, List.cons_append, List.nil_append]
      rw [e1]
      by_cases hl0 : l = []
      · subst hl0
        rw [List.nil_append, indent_blank, ← e]
        exact ⟨c!"\n" ++ p, q, by simp only [List.append_assoc]⟩
      · rw [indent_line hl hl0, ← e]
        exact ⟨ind ++ l ++ c!"\n" ++ p, q, by simp only [List.append_assoc]⟩
    · have hl : '\n' ∉ a ++ x := by
        rw [List.mem_append, not_or]
        exact ⟨hm, hx⟩
      have e1 : a ++ (x ++ c!"\n") ++ b = (a ++ x) ++ c!"\n" ++ b := by simp only [List.append_assoc]
      rw [e1, indent_line hl (by simp [hne])]
      exact ⟨ind ++ a, indent b ind, by simp only [List.append_assoc]⟩

theorem indent_keeps_infix {x s ind : Str} (hx : '\n' ∉ x) (hne : x ≠ []) (h : x ++ c!"\n" <:+: s) : x ++ c!"\n" <:+: indent s ind := by
  obtain ⟨a, b, rfl⟩ := h
  exact indent_keeps hx hne b a.length a (Nat.le_refl _)

theorem infix_in {x a b c : Str} (h : x <:+: b) : x <:+: a ++ b ++ c := h.trans ⟨a, c, rfl⟩

theorem class_code_with {E : Env} {n i : Nat} {b : Str} (hb : builtinDecl E (E.cls i).qname = false)
    (he : E.cfg.binders (stdName E (E.cls i).qname) = some b) : (bindClassTextF E (n + 1) i).code = bindWithText E i b := by
  simp only [bindClassTextF, hb, he, Bool.false_eq_true, if_false]

theorem class_code_own {E : Env} {n i : Nat} (hb : builtinDecl E (E.cls i).qname = false)
    (he : E.cfg.binders (stdName E (E.cls i).qname) = none) : (bindClassTextF E (n + 1) i).code =
      indent (classHead E i ++ (classItems E i).flatMap (itemText E i) ++
        (if (((nestedBound E (E.cls i)).map (bindClassTextF E n)).flatMap fun o => o.code ++ c!"\n").isEmpty = true then
          ((nestedBound E (E.cls i)).map (bindClassTextF E n)).flatMap fun o => o.code ++ c!"\n"
         else c!"\n" ++ ((nestedBound E (E.cls i)).map (bindClassTextF E n)).flatMap fun o => o.code ++ c!"\n") ++ c!"}\n") c!"\t" := by
  simp only [bindClassTextF, hb, he, Bool.false_eq_true, if_false]

/-- The text of a class has the comments of all classes that it registers. -/
theorem class_has_comment {E : Env} {f : Str} {k : Nat} (hf : (E.cls k).incl = c!"<" ++ f ++ c!">")
    (h1 : '\n' ∉ stdName E (E.cls k).qname) (h2 : '\n' ∉ f) (h3 : '\n' ∉ (E.cls k).line) : ∀ (n i : Nat), k ∈ registersF E n i →
    c!"\t" ++ originComment E (.cls k) f <:+: (bindClassTextF E n i).code ∨ c!"{ " ++ originComment E (.cls k) f <:+: (bindClassTextF E n i).code := by
  obtain ⟨l1, l2, l3, l4, l5, l6, -, -⟩ := origin_lits
  have hfl : fileLine E (E.cls k).incl (E.cls k).line = _ := (congrArg (fileLine E · (E.cls k).line) hf).trans (fileLine_angle E f _)
  have hc : commentFor E (E.cls k).qname (E.cls k).incl (E.cls k).line = originComment E (.cls k) f := by
    simp only [commentFor, hfl, originComment, described, lineOf, l1, l4, l5, l6, List.append_assoc]
  have hx : ∃ x, originComment E (.cls k) f = x ++ c!"\n" ∧ '\n' ∉ x := by
    refine ⟨c!"// " ++ stdName E (E.cls k).qname ++ c!" file:" ++ f ++ c!" line:" ++ (if E.opts.skipLineNumber = true then [] else (E.cls k).line), ?_, ?_⟩
    · simp only [originComment, described, lineOf, l1, l4, l5, l6]
    · simp only [List.mem_append, not_or]
      refine ⟨⟨⟨⟨⟨by decide, h1⟩, by decide⟩, h2⟩, by decide⟩, ?_⟩
      split
      · exact List.not_mem_nil
      · exact h3
  obtain ⟨x, hx, hn⟩ := hx
  have keep (o : Str) (ho : '\n' ∉ o) (hne : o ≠ []) {s : Str} (h : o ++ originComment E (.cls k) f <:+: s) :
      o ++ originComment E (.cls k) f <:+: indent s c!"\t" := by
    rw [hx, ← List.append_assoc] at h ⊢
    exact indent_keeps_infix (by rw [List.mem_append, not_or]; exact ⟨ho, hn⟩) (by simp [hne]) h
  intro n
  induction n with
  | zero => intro i h; cases h
  | succ n ih =>
    intro i h
    unfold registersF at h
    cases hb : builtinDecl E (E.cls i).qname with
    | true => rw [hb, if_pos rfl] at h; cases h
    | false =>
      rw [hb, if_neg Bool.false_ne_true] at h
      cases he : E.cfg.binders (stdName E (E.cls i).qname) with
      | some b =>
        rw [he, if_pos (by rfl)] at h
        obtain rfl := List.mem_singleton.1 h
        left
        rw [class_code_with hb he]
        simp only [bindWithText, hc]
        simp only [List.append_assoc]
        exact ⟨[], _, by rw [List.nil_append, List.append_assoc]⟩
      | none =>
        rw [he, if_neg (by simp)] at h
        rw [class_code_own hb he]
        rcases List.mem_append.1 h with h | h
        · obtain rfl : k = i := by
            split at h
            · cases h
            · exact List.mem_singleton.1 h
          right
          apply keep c!"{ " (by decide) (by decide)
          simp only [classHead, hc]
          simp only [List.append_assoc]
          exact ⟨[], _, by rw [List.nil_append, List.append_assoc]⟩
        · obtain ⟨j, hj, hk⟩ := List.mem_flatMap.1 h
          have up (y : Str) (hy : y <:+: (bindClassTextF E n j).code) :
              y <:+: ((nestedBound E (E.cls i)).map (bindClassTextF E n)).flatMap fun o => o.code ++ c!"\n" := by
            rw [List.flatMap_map]
            obtain ⟨a, b, e⟩ := List.append_of_mem hj
            rw [e, List.flatMap_append, List.flatMap_cons]
            exact hy.trans ⟨a.flatMap (fun j => (bindClassTextF E n j).code ++ c!"\n"),
              c!"\n" ++ b.flatMap (fun j => (bindClassTextF E n j).code ++ c!"\n"), by simp only [List.append_assoc]⟩
          have up' (y : Str) (hy : y <:+: (bindClassTextF E n j).code) (p q : Str) : y <:+: p ++
              (if (((nestedBound E (E.cls i)).map (bindClassTextF E n)).flatMap fun o => o.code ++ c!"\n").isEmpty = true then
                ((nestedBound E (E.cls i)).map (bindClassTextF E n)).flatMap fun o => o.code ++ c!"\n"
               else c!"\n" ++ ((nestedBound E (E.cls i)).map (bindClassTextF E n)).flatMap fun o => o.code ++ c!"\n") ++ q := by
            apply infix_in
            split
            · exact up y hy
            · exact (up y hy).trans (List.suffix_append _ _).isInfix
          rcases ih j hk with h | h
          · exact .inl (keep c!"\t" (by decide) (by decide) (up' _ h _ _))
          · exact .inr (keep c!"{ " (by decide) (by decide) (up' _ h _ _))

/-- **C121.** Every class that is registered when the module is imported, also a class inside of a class, is headed by its comment, with a
tab or a brace before it, in one of the sources. -/
theorem C121_nested (U : TransUnit) (o : Opts) (fs fs' : FS) (hw : fs.WF) (hn : U.visits.length + 1 < 2 ^ 32) (hd : DistinctNames U o)
    (h : U.Ends o fs (.done fs')) :
    ∃ srcs, Generated U o fs fs' srcs ∧ ∀ k ∈ registered U.E srcs, ∀ file, headerOf U.E (.cls k) = "<".toList ++ file ++ ">".toList →
      '\n' ∉ described U.E (.cls k) → '\n' ∉ file → '\n' ∉ lineOf U.E (.cls k) →
      ∃ s ∈ srcs, "\t".toList ++ originComment U.E (.cls k) file <:+: s.text U.E ∨ "{ ".toList ++ originComment U.E (.cls k) file <:+: s.text U.E := by
  obtain ⟨srcs, hg⟩ := C69_exactly_once U o fs fs' hw hn hd h
  refine ⟨srcs, hg, fun k hk f hf h1 h2 h3 => ?_⟩
  have l : "<".toList = c!"<" ∧ ">".toList = c!">" ∧ "\t".toList = c!"\t" ∧ "{ ".toList = c!"{ " := by decide +kernel
  rw [l.1, l.2.1] at hf
  rw [l.2.2.1, l.2.2.2]
  obtain ⟨v, hv, hk⟩ := List.mem_flatMap.1 hk
  obtain ⟨s, hs, hv⟩ := List.mem_flatMap.1 hv
  refine ⟨s, hs, ?_⟩
  obtain ⟨a, b, e⟩ := source_has_binding (E := U.E) hv
  rw [e]
  cases v with
  | fn F => cases hk
  | enm i => cases hk
  | cls i => exact (class_has_comment hf h1 h2 h3 _ _ hk).imp infix_in infix_in

/-- A run to which `C121_nested` applies, with the class `O::N` inside of `O`. -/
example : ∃ fs', Ex.nestedOrder.Ends (Ex.opts 1000 false true) Ex.fsEmpty (.done fs') ∧
    ∃ srcs, Generated Ex.nestedOrder (Ex.opts 1000 false true) Ex.fsEmpty fs' srcs ∧
    4 ∈ (Ex.nestedOrder.visits.flatMap (registers Ex.nestedOrder.E)) ∧ headerOf Ex.nestedOrder.E (.cls 4) = "<".toList ++ c!"a.h" ++ ">".toList ∧
    '\n' ∉ described Ex.nestedOrder.E (.cls 4) ∧ '\n' ∉ lineOf Ex.nestedOrder.E (.cls 4) ∧
    originComment Ex.nestedOrder.E (.cls 4) c!"a.h" = c!"// O::N file:a.h line:2\n" := by
  obtain ⟨fs', h, _⟩ : ∃ fs', Ex.nestedOrder.Ends (Ex.opts 1000 false true) Ex.fsEmpty (.done fs') ∧ (fun _ => true) fs' = true :=
    Ex.ends_after (n := 20) (by decide +kernel)
  obtain ⟨srcs, hg, -⟩ := C121_nested Ex.nestedOrder (Ex.opts 1000 false true) Ex.fsEmpty fs' Ex.fsEmpty_wf (by decide) (.inr (.inl rfl)) h
  exact ⟨fs', h, srcs, hg, by decide +kernel, by decide +kernel, by decide +kernel, by decide +kernel, by decide +kernel⟩

end Binder
