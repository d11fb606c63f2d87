import Verif.Props.Origin

/-!
# C121: the annotations of the member functions and the constructors
-/

namespace Binder

open Cxx Spec

theorem ctor_signature (E : Env) (F : Func) : functionQualifiedName E F true = constructorSignature E F := by
  obtain ⟨-, l2, l3, -, -, -, -, -⟩ := origin_lits
  unfold functionQualifiedName constructorSignature parameterTypes
  rw [functionArguments_eq, l2, l3]
  simp only [if_true, List.nil_append, List.append_assoc]

theorem ctor_annotation {E : Env} {F : Func} {file : Str} (hf : F.incl = c!"<" ++ file ++ c!">") :
    signatureComment E F true = annotation E (constructorSignature E F ++ parameterTypes E F) (.fn F) file := by
  obtain ⟨-, l2, l3, l4, l5, l6, -, -⟩ := origin_lits
  unfold signatureComment
  rw [hf, fileLine_angle, functionArguments_eq, ctor_signature]
  unfold annotation parameterTypes lineOf
  rw [l2, l3, l4, l5, l6, origin_lits'.1]
  simp only [List.append_assoc]

/-- With `--annotate-functions` each member function and each constructor that is in the binding of a class is headed by its signature, its
header and its line; as with functions outside of classes, the types of the parameters are there twice. -/
theorem C121_members_partial (E : Env) (i : Nat) (F : Func) (file : Str) (hf : F.incl = "<".toList ++ file ++ ">".toList) (ha : E.opts.annotateFunctions = true) :
    (∀ parent lam, annotation E (signature E F ++ parameterTypes E F) (.fn F) file <+: itemText E i (.method F parent lam)) ∧
    (∀ item ∈ [Item.defaultCtor F, .copyCtor F, .ctor F], annotation E (constructorSignature E F ++ parameterTypes E F) (.fn F) file <+: itemText E i item) ∧
    "\t// function-signature: ".toList ++ classQualifiedName E (E.cls i) ++ "()\n".toList <+: itemText E i .implicitDefault := by
  have l : "<".toList = c!"<" ∧ ">".toList = c!">" ∧ "()\n".toList = c!"()\n" := by decide +kernel
  rw [l.1, l.2.1] at hf
  rw [l.2.2, origin_lits'.1, ← function_annotation hf, ← ctor_annotation hf]
  refine ⟨fun parent lam => ?_, fun item h => ?_, ?_⟩
  · unfold itemText bindFunctionText
    simp only [ha, if_true]
    exact List.prefix_append _ _
  · simp only [List.mem_cons, List.not_mem_nil, or_false] at h
    rcases h with rfl | rfl | rfl
    · unfold itemText defaultCtorText
      simp only [ha, if_true]
      exact List.prefix_append _ _
    · unfold itemText copyCtorText
      simp only [ha, if_true]
      exact List.prefix_append _ _
    · have hle := firstDefault_le F.params
      have e : arities (firstDefault F.params) F.params.length = firstDefault F.params :: List.range' (firstDefault F.params + 1) (F.params.length - firstDefault F.params) := by
        unfold arities
        rw [show F.params.length + 1 - firstDefault F.params = (F.params.length - firstDefault F.params) + 1 from by omega, List.range'_succ]
      unfold itemText ctorsText
      simp only [e, List.flatMap_cons]
      unfold ctorText
      simp only [ha, if_true]
      generalize signatureComment E F true = x
      simp only [List.append_assoc]
      exact List.prefix_append _ _
  · unfold itemText defaultCtorText
    simp only [ha, if_true]
    exact List.prefix_append _ _

/-- `C121_members_partial` for a function of the examples: its hypotheses are met, and the text begins as it says. -/
example : Ex.annotated.incl = "<".toList ++ c!"a/b.h" ++ ">".toList ∧ Ex.annotating.opts.annotateFunctions = true ∧
    c!"\t// function-signature: int n::g(m::S, m::S)(m::S, m::S) file:a/b.h line:7\n" <+: itemText Ex.annotating 0 (.method Ex.annotated none false) := by
  refine ⟨by decide +kernel, by decide, by decide +kernel⟩

end Binder
