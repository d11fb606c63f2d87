import Verif.Spec.Origin
import Verif.Props.Reserved
import Verif.Lemmas.ImportExample

/-!
# C121: every binding says where it comes from
-/

namespace Binder

open Cxx Spec

theorem fileLine_angle (E : Env) (f line : Str) : fileLine E (c!"<" ++ f ++ c!">") line =
    c!" file:" ++ f ++ c!" line:" ++ (if E.opts.skipLineNumber = true then [] else line) ++ c!"\n" := by
  have h : Str.substr (c!"<" ++ f ++ c!">") 1 ((c!"<" ++ f ++ c!">").length - 2) = f := by
    unfold Str.substr
    rw [show (c!"<" ++ f ++ c!">").length - 2 = f.length from by simp, show (c!"<" ++ f ++ c!">").drop 1 = f ++ c!">" from rfl, List.take_left]
  have h0 : (c!"<" ++ f ++ c!">").length ≠ 0 := by simp
  simp only [fileLine, if_pos h0, h, lineNumber]

theorem indent_line {l rest ind : Str} (hl : '\n' ∉ l) (hne : l ≠ []) : indent (l ++ c!"\n" ++ rest) ind = ind ++ l ++ c!"\n" ++ indent rest ind := by
  have h1 : l ++ c!"\n" ++ rest = l ++ '\n' :: rest := by rw [List.append_assoc]; rfl
  rw [indent_eq_terminated, indent_eq_terminated, h1, split, splitGo_terminated_aux _ _ _ _ hl, split]
  simp only [List.map_cons, List.append_nil, List.nil_append, terminated, if_neg hne]
  simp only [List.append_assoc, List.cons_append, List.nil_append]

theorem origin_lits : "// ".toList = c!"// " ∧ "(".toList = c!"(" ∧ ")".toList = c!")" ∧ " file:".toList = c!" file:" ∧ " line:".toList = c!" line:" ∧
    "\n".toList = c!"\n" ∧ "\t".toList = c!"\t" ∧ "\t{ ".toList = c!"\t{ " := by decide +kernel

theorem class_code_head {E : Env} {i : Nat} (hb : builtinDecl E (E.cls i).qname = false) (he : E.cfg.binders (stdName E (E.cls i).qname) = none) :
    ∃ r, (classOutput E i).code = indent (c!"{ " ++ commentFor E (E.cls i).qname (E.cls i).incl (E.cls i).line ++ r) c!"\t" := by
  simp only [classOutput, bindClassTextF, hb, he, classHead, Bool.false_eq_true, if_false]
  simp only [List.append_assoc]
  exact ⟨_, rfl⟩

/-- The binding of a single declaration. -/
theorem binding_origin {E : Env} {v : Visit} {f : Str} (hf : headerOf E v = c!"<" ++ f ++ c!">")
    (h1 : '\n' ∉ described E v) (h2 : '\n' ∉ f) (h3 : '\n' ∉ lineOf E v) (hb : ¬ Converted E v) :
    ∃ opening rest, bindingOf E v = opening ++ originComment E v f ++ rest ∧ (opening = "\t".toList ∨ opening = "\t{ ".toList) := by
  obtain ⟨l1, l2, l3, l4, l5, l6, l7, l8⟩ := origin_lits
  rw [l7, l8]
  cases v with
  | fn F =>
    refine ⟨c!"\t", bindFunctionText E (c!"\t" ++ moduleVariable (nsOf E F.qname F.name)) F none false ++ c!"\n", ?_, .inl rfl⟩
    have hf : fileLine E F.incl F.line = _ := (congrArg (fileLine E · F.line) hf).trans (fileLine_angle E f F.line)
    simp only [bindingOf, functionCode, hf, functionArguments_eq, originComment, described, lineOf, l1, l2, l3, l4, l5, l6, List.append_assoc]
    rfl
  | enm i =>
    refine ⟨c!"\t", bindEnumText E (moduleVariable (nsOf E (E.enumD i).qname (E.enumD i).name)) (E.enumD i) ++ c!";\n\n", ?_, .inl rfl⟩
    have hf : fileLine E (E.enumD i).incl (E.enumD i).line = _ := (congrArg (fileLine E · (E.enumD i).line) hf).trans (fileLine_angle E f _)
    simp only [bindingOf, enumCode, commentFor, hf, originComment, described, lineOf, l1, l4, l5, l6, List.append_assoc]
  | cls i =>
    have hf : fileLine E (E.cls i).incl (E.cls i).line = _ := (congrArg (fileLine E · (E.cls i).line) hf).trans (fileLine_angle E f _)
    have hb : builtinDecl E (E.cls i).qname = false := by
      cases h : builtinDecl E (E.cls i).qname with
      | false => rfl
      | true => exact absurd h hb
    have hc : commentFor E (E.cls i).qname (E.cls i).incl (E.cls i).line = originComment E (.cls i) f := by
      simp only [commentFor, hf, originComment, described, lineOf, l1, l4, l5, l6, List.append_assoc]
    cases he : E.cfg.binders (stdName E (E.cls i).qname) with
    | some b =>
      have hs : bindingOf E (.cls i) = bindWithText E i b := by
        show (classOutput E i).code = _
        simp only [classOutput, bindClassTextF, hb, he]
        rfl
      rw [hs]
      simp only [bindWithText, hc]
      simp only [List.append_assoc]
      exact ⟨c!"\t", _, rfl, .inl rfl⟩
    | none =>
      have hx : ∃ x, originComment E (.cls i) f = x ++ c!"\n" ∧ '\n' ∉ x := by
        refine ⟨c!"// " ++ described E (.cls i) ++ c!" file:" ++ f ++ c!" line:" ++ (if E.opts.skipLineNumber = true then [] else lineOf E (.cls i)), ?_, ?_⟩
        · simp only [originComment, l1, l4, l5, l6]
        · simp only [List.mem_append, not_or]
          refine ⟨⟨⟨⟨⟨by decide, h1⟩, by decide⟩, h2⟩, by decide⟩, ?_⟩
          split
          · exact List.not_mem_nil
          · exact h3
      obtain ⟨x, hx, hn⟩ := hx
      have hl : '\n' ∉ c!"{ " ++ x := by
        rw [List.mem_append, not_or]
        exact ⟨by decide, hn⟩
      obtain ⟨r, hr⟩ := class_code_head hb he
      rw [hc, hx] at hr
      refine ⟨c!"\t{ ", indent r c!"\t", ?_, .inr rfl⟩
      have := indent_line (rest := r) (ind := c!"\t") hl (by simp)
      show (classOutput E i).code = _
      rw [hr, hx]
      simpa only [List.append_assoc, List.cons_append, List.nil_append] using this

/-- The text of a source has the bindings of all that is bound in it. -/
theorem source_has_binding {E : Env} {s : Source} {v : Visit} (hv : v ∈ s.bound) : ∃ before after, s.text E = before ++ bindingOf E v ++ after := by
  obtain ⟨st, hst, hb⟩ := List.mem_filterMap.1 hv
  cases st with
  | binds w =>
    cases hb
    obtain ⟨a, b, e⟩ := List.append_of_mem hst
    unfold Source.text
    rw [e, List.flatMap_append, List.flatMap_cons]
    exact ⟨s.head ++ s.bound.flatMap (prefixOf E) ++ c!"void " ++ s.fn ++
      "(std::function< pybind11::module &(std::string const &namespace_) > &M)".toList ++ c!"\n{\n" ++ a.flatMap (Stmt.text E),
      b.flatMap (Stmt.text E) ++ c!"}\n", by simp only [List.append_assoc, Stmt.text]⟩
  | calls => cases hb
  | traces => cases hb

/-- **C121.** In the sources that a run leaves, the binding of every declaration begins with a comment that says which declaration it is, in
which header and in which line, and nothing but a tab and an opening brace stands before. -/
theorem C121_origin (U : TransUnit) (o : Opts) (fs fs' : FS) (hw : fs.WF) (hn : U.visits.length + 1 < 2 ^ 32) (hd : DistinctNames U o)
    (h : U.Ends o fs (.done fs')) :
    ∃ srcs, Generated U o fs fs' srcs ∧ ∀ s ∈ srcs, ∀ v ∈ s.bound, ∀ file, headerOf U.E v = "<".toList ++ file ++ ">".toList →
      '\n' ∉ described U.E v → '\n' ∉ file → '\n' ∉ lineOf U.E v →
      ∃ before opening rest after, s.text U.E = before ++ bindingOf U.E v ++ after ∧
        bindingOf U.E v = opening ++ originComment U.E v file ++ rest ∧ (opening = "\t".toList ∨ opening = "\t{ ".toList) := by
  obtain ⟨srcs, hg⟩ := C69_exactly_once U o fs fs' hw hn hd h
  refine ⟨srcs, hg, fun s hs v hv f hf h1 h2 h3 => ?_⟩
  have hr := ((hg.exactly v).1 (List.mem_flatMap.2 ⟨s, hs, hv⟩)).1
  have l : "<".toList = c!"<" ∧ ">".toList = c!">" := by decide +kernel
  rw [l.1, l.2] at hf
  obtain ⟨op, rest, e, ho⟩ := binding_origin hf h1 h2 h3 hr.allowed.notConverted
  obtain ⟨a, b, e'⟩ := source_has_binding (E := U.E) hv
  exact ⟨a, op, rest, b, e', e, ho⟩

theorem origin_lits' : "\t// function-signature: ".toList = c!"\t// function-signature: " ∧ " ".toList = c!" " := by decide +kernel

theorem function_comment {E : Env} {F : Func} {file : Str} (hf : F.incl = c!"<" ++ file ++ c!">") :
    c!"// " ++ F.qname ++ c!"(" ++ functionArguments E F ++ c!")" ++ fileLine E F.incl F.line = originComment E (.fn F) file := by
  obtain ⟨l1, l2, l3, l4, l5, l6, -, -⟩ := origin_lits
  rw [hf, fileLine_angle, functionArguments_eq]
  unfold originComment described lineOf
  rw [l1, l2, l3, l4, l5, l6]
  simp only [List.append_assoc]

theorem function_signature (E : Env) (F : Func) : functionQualifiedName E F false = signature E F := by
  obtain ⟨-, l2, l3, -, -, -, -, -⟩ := origin_lits
  unfold functionQualifiedName signature parameterTypes
  rw [functionArguments_eq, l2, l3, origin_lits'.2]
  simp only [Bool.false_eq_true, if_false, List.append_assoc]

theorem function_annotation {E : Env} {F : Func} {file : Str} (hf : F.incl = c!"<" ++ file ++ c!">") :
    signatureComment E F false = annotation E (signature E F ++ parameterTypes E F) (.fn F) file := by
  obtain ⟨-, l2, l3, l4, l5, l6, -, -⟩ := origin_lits
  unfold signatureComment
  rw [hf, fileLine_angle, functionArguments_eq, function_signature]
  unfold annotation parameterTypes lineOf
  rw [l2, l3, l4, l5, l6, origin_lits'.1]
  simp only [List.append_assoc]

/-- With `--annotate-functions` the comment of a function is followed by a second one, which has its signature; the types of the parameters
follow the signature once more. -/
theorem C121_annotation_partial (E : Env) (F : Func) (file : Str) (hf : F.incl = "<".toList ++ file ++ ">".toList) (ha : E.opts.annotateFunctions = true) :
    "\t".toList ++ originComment E (.fn F) file ++ annotation E (signature E F ++ parameterTypes E F) (.fn F) file <+: bindingOf E (.fn F) := by
  have l : "<".toList = c!"<" ∧ ">".toList = c!">" := by decide +kernel
  rw [l.1, l.2] at hf
  have e : bindingOf E (.fn F) = c!"\t" ++ originComment E (.fn F) file ++ (bindFunctionText E (c!"\t" ++ moduleVariable (nsOf E F.qname F.name)) F none false ++ c!"\n") := by
    rw [← function_comment hf]
    simp only [bindingOf, functionCode, List.append_assoc, List.cons_append, List.nil_append]
  rw [e, origin_lits.2.2.2.2.2.2.1, ← function_annotation hf]
  unfold bindFunctionText
  rw [if_pos ha]
  generalize signatureComment E F false = x
  rw [List.append_assoc x]
  exact (List.prefix_append_right_inj _).2 (List.prefix_append _ _)

/-- A function for the examples: `int g(m::S s, m::S s)` in line 7 of `a/b.h`. -/
def Ex.annotated : Func :=
  { Ex.fun_f with
    qname := c!"n::g", name := c!"g", incl := c!"<a/b.h>", line := c!"7", params := Ex.fun_f.params ++ Ex.fun_f.params }

def Ex.annotating : Env := { Ex.unit.E with opts := { Ex.unit.E.opts with annotateFunctions := true } }

/-- The annotation is not the signature: the parameters are there twice. -/
theorem C121_annotation_false : ∃ (E : Env) (F : Func) (file : Str), E.opts.annotateFunctions = true ∧ F.incl = "<".toList ++ file ++ ">".toList ∧
    signature E F = "int n::g(m::S, m::S)".toList ∧
    "\t// function-signature: int n::g(m::S, m::S)(m::S, m::S) file:a/b.h line:7\n".toList <:+: bindingOf E (.fn F) ∧
    ¬ annotation E (signature E F) (.fn F) file <:+: bindingOf E (.fn F) := by
  refine ⟨Ex.annotating, Ex.annotated, c!"a/b.h", by decide, ?_, ?_, ?_, ?_⟩
  · decide +kernel
  · decide +kernel
  · decide +kernel
  · decide +kernel

/-- A run to which `C121_origin` applies, and what it says of a function and a class of `Ex.unit`. -/
example : ∃ fs', Ex.unit.Ends (Ex.opts 1000) Ex.fsEmpty (.done fs') ∧ ∃ srcs, Generated Ex.unit (Ex.opts 1000) Ex.fsEmpty fs' srcs ∧
    (headerOf Ex.unit.E (.fn Ex.fun_f) = "<".toList ++ c!"n.h" ++ ">".toList ∧ '\n' ∉ described Ex.unit.E (.fn Ex.fun_f) ∧
      '\n' ∉ lineOf Ex.unit.E (.fn Ex.fun_f) ∧ originComment Ex.unit.E (.fn Ex.fun_f) c!"n.h" = c!"// n::f(m::S) file:n.h line:3\n") := by
  obtain ⟨fs', h, _⟩ : ∃ fs', Ex.unit.Ends (Ex.opts 1000) Ex.fsEmpty (.done fs') ∧ (fun _ => true) fs' = true :=
    Ex.ends_after (n := 20) (by decide +kernel)
  obtain ⟨srcs, hg, -⟩ := C121_origin Ex.unit (Ex.opts 1000) Ex.fsEmpty fs' Ex.fsEmpty_wf (by decide) (Ex.unit_distinct 1000) h
  exact ⟨fs', h, srcs, hg, by decide +kernel, by decide +kernel, by decide +kernel, by decide +kernel⟩

end Binder
