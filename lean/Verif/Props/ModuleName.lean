import Verif.Props.Run
import Verif.Lemmas.ImportExample

/-!
# C84: the module has the name that the user asked for
-/

namespace Binder

open Cxx Spec

theorem rootText_names (c : Config) (o : Opts) (nss fns : List Str) : "\n\nPYBIND11_MODULE(".toList ++ o.root ++ ", root_module) {\n".toList <:+: rootText c o nss fns := by
  have e : ", root_module) {\n\troot_module.doc() = \"".toList = ", root_module) {\n".toList ++ "\troot_module.doc() = \"".toList := by decide +kernel
  unfold rootText rootMiddle
  rw [e]
  simp only [List.append_assoc]
  generalize rootHead c = a
  generalize declsText fns = b
  refine List.IsInfix.trans ?_ (List.suffix_append a _).isInfix
  refine List.IsInfix.trans ?_ (List.suffix_append b _).isInfix
  simp only [← List.append_assoc (", root_module) {\n".toList)]
  simp only [← List.append_assoc o.root]
  simp only [← List.append_assoc ("\n\nPYBIND11_MODULE(".toList)]
  repeat first | exact List.infix_refl _ | refine List.IsInfix.trans ?_ (List.prefix_append _ _).isInfix

/-- The root file has the definition of the module, under the name given by `--root-module`. -/
theorem rootFile_names (c : Config) (o : Opts) (nss : List Str) (files : List OutFile) :
    "\n\nPYBIND11_MODULE(".toList ++ o.root ++ ", root_module) {\n".toList <:+: rootFileText c o nss files := by
  have h := rootText_names c o nss (functionNames files)
  unfold rootFileText
  split
  · iterate 9 refine List.IsInfix.trans ?_ (List.prefix_append _ _).isInfix
    exact h.trans (List.suffix_append _ _).isInfix
  · exact h

/-- **C84.** The root file that a run leaves defines the Python module under the name that the user gave with `--root-module`. -/
theorem C84_module_name (U : TransUnit) (o : Opts) (fs fs' : FS) (h : U.Ends o fs (.done fs')) :
    ∃ text, fs'.files (rootPath o) = some text ∧ "\n\nPYBIND11_MODULE(".toList ++ o.root ++ ", root_module) {\n".toList <:+: text := by
  obtain ⟨st, bs, files, fs1, fs2, h⟩ := ends_done h
  rw [h.finish]
  exact ⟨_, finishRun_root _ _ _ _, (rootFile_names _ _ _ _).trans (List.prefix_append _ _).isInfix⟩

/-- A run to which `C84_module_name` applies. -/
example : ∃ fs', Ex.unit.Ends (Ex.opts 1000) Ex.fsEmpty (.done fs') ∧ ∃ text, fs'.files (rootPath (Ex.opts 1000)) = some text := by
  obtain ⟨fs', h, _⟩ : ∃ fs', Ex.unit.Ends (Ex.opts 1000) Ex.fsEmpty (.done fs') ∧ (fun _ => true) fs' = true :=
    Ex.ends_after (n := 20) (by decide +kernel)
  obtain ⟨text, ht, -⟩ := C84_module_name Ex.unit (Ex.opts 1000) Ex.fsEmpty fs' h
  exact ⟨fs', h, text, ht⟩

end Binder
