import Verif.Props.Reserved
import Verif.Spec.Converts

/-!
# C116: types that are left to pybind11 are converted
-/

namespace Binder

open Cxx Spec

theorem includesHeader_append {a b h : Str} (hb : IncludesHeader b h) (ha : a = [] ∨ a.getLast? = some '\n') : IncludesHeader (a ++ b) h := by
  obtain ⟨x, y, rfl, hx⟩ := hb
  refine ⟨a ++ x, y, by simp, ?_⟩
  rcases hx with rfl | hx
  · rw [List.append_nil]
    exact ha
  · exact .inr (by rw [List.getLast?_append, hx]; rfl)

theorem includesHeader_more {a b h : Str} (ha : IncludesHeader a h) : IncludesHeader (a ++ b) h := by
  obtain ⟨x, y, rfl, hx⟩ := ha
  exact ⟨x, y ++ b, by simp, hx⟩

theorem includeLines_end (l : List Str) : l.flatMap (fun i => c!"#include " ++ i ++ c!"\n") = [] ∨
    (l.flatMap (fun i => c!"#include " ++ i ++ c!"\n")).getLast? = some '\n' := by
  rcases List.eq_nil_or_concat l with rfl | ⟨l', x, rfl⟩
  · exact .inl rfl
  · right
    rw [List.concat_eq_append, List.flatMap_append]
    simp only [List.flatMap_cons, List.flatMap_nil, List.append_nil, ← List.append_assoc]
    exact List.getLast?_concat

theorem includeLines_includes {l : List Str} {h : Str} (hm : c!"<" ++ h ++ c!">" ∈ l) :
    IncludesHeader (l.flatMap (fun i => c!"#include " ++ i ++ c!"\n")) h := by
  obtain ⟨l1, l2, rfl⟩ := List.append_of_mem hm
  rw [List.flatMap_append]
  refine includesHeader_append ⟨[], l2.flatMap (fun i => c!"#include " ++ i ++ c!"\n"), ?_, .inl rfl⟩ (includeLines_end l1)
  simp

/-- The include lines of the configuration. -/
theorem includesCode_includes (c : Config) (stl : Bool) :
    (∀ h, c!"<" ++ h ++ c!">" ∈ c.includesToAdd → IncludesHeader (includesCode c stl) h) ∧ (stl = true → IncludesHeader (includesCode c stl) c!"pybind11/stl.h") := by
  have hfold : ∀ (l : List Str) (a : Str), l.foldl (fun r i => r ++ c!"#include " ++ i ++ c!"\n") a = a ++ l.flatMap (fun i => c!"#include " ++ i ++ c!"\n") := by
    intro l
    induction l with
    | nil => simp
    | cons x l ih => intro a; rw [List.foldl_cons, ih]; simp
  have hmore : ∀ (s h : Str), IncludesHeader s h → IncludesHeader (if s.length ≠ 0 then s ++ c!"\n" else s) h := by
    intro s h hs
    split
    · exact includesHeader_more hs
    · exact hs
  unfold includesCode
  rw [hfold, List.nil_append]
  constructor
  · intro h hm
    apply hmore
    split
    · exact includesHeader_more (includeLines_includes hm)
    · exact includeLines_includes hm
  · rintro rfl
    apply hmore
    rw [if_pos rfl]
    exact includesHeader_append ⟨[], [], by simp, .inl rfl⟩ (includeLines_end _)

theorem moduleHeader_includes (c : Config) (stl : Bool) : IncludesHeader (moduleHeader c stl) c.pybind11IncludeFile ∧
    (∀ h, c!"<" ++ h ++ c!">" ∈ c.includesToAdd → IncludesHeader (moduleHeader c stl) h) ∧ (stl = true → IncludesHeader (moduleHeader c stl) c!"pybind11/stl.h") := by
  have e1 : "\n#include <functional>\n".toList = c!"\n#include <functional>\n" := by decide +kernel
  have e2 : "#include <".toList = c!"#include <" := by decide +kernel
  have e3 : "\n#include <string>\n".toList = c!"\n#include <string>\n" := by decide +kernel
  have e : ∃ rest, moduleHeader c stl = (c!"\n#include <functional>\n" ++ c!"#include <" ++ c.pybind11IncludeFile ++ c!">\n" ++ c!"#include <string>\n") ++
      (includesCode c stl ++ rest) := by
    unfold moduleHeader
    rw [e1, e2, e3]
    generalize "\n#ifndef BINDER_PYBIND11_TYPE_CASTER\n\t#define BINDER_PYBIND11_TYPE_CASTER\n\t".toList = x1
    generalize "PYBIND11_DECLARE_HOLDER_TYPE(T, ".toList = x2
    generalize "<T>, false)".toList = x3
    generalize "\n\tPYBIND11_DECLARE_HOLDER_TYPE(T, T*, false)\n\t".toList = x4
    generalize "PYBIND11_MAKE_OPAQUE(".toList = x5
    generalize "<void>)".toList = x6
    generalize "\n#endif\n\n".toList = x7
    exact ⟨x1 ++ x2 ++ c.holderType ++ x3 ++ x4 ++ x5 ++ c.holderType ++ x6 ++ x7, by simp⟩
  obtain ⟨rest, e⟩ := e
  have key : ∀ h, IncludesHeader (includesCode c stl) h → IncludesHeader (moduleHeader c stl) h := by
    intro h hh
    rw [e]
    refine includesHeader_append (includesHeader_more hh) (.inr ?_)
    rw [List.getLast?_append]
    rfl
  refine ⟨?_, fun h hm => key h ((includesCode_includes c stl).1 h hm), fun hs => key _ ((includesCode_includes c stl).2 hs)⟩
  rw [e]
  exact ⟨c!"\n#include <functional>\n", c!"#include <string>\n" ++ (includesCode c stl ++ rest), by simp, .inr (by decide)⟩

/-- C116, partial: let a run leave a type that pybind11 can convert to pybind11, and let the user not have said so. Then every source includes the header
with the conversion: if this is the one of `pybind11.h`, the configured file in its place; if it is `stl.h`, this one; and if it is another one, provided
that the user has added it. Missing: the headers for functions and complex numbers, if the user does not add them. -/
theorem C116_included_partial (U : TransUnit) (o : Opts) (fs fs' : FS) (hw : fs.WF) (hn : U.visits.length + 1 < 2 ^ 32)
    (hd : DistinctNames U o) (hs : o.stl = U.E.opts.stl) (h : U.Ends o fs (.done fs')) :
    ∃ srcs, Generated U o fs fs' srcs ∧ ∀ s ∈ srcs, ∀ t header, (t, header) ∈ conversions → PythonHas U.E t → t ∉ U.E.cfg.pythonBuiltins → t ≠ U.E.holder →
      (header = c!"pybind11/pybind11.h" → IncludesHeader (s.text U.E) U.E.cfg.pybind11IncludeFile) ∧
      (header = c!"pybind11/stl.h" → IncludesHeader (s.text U.E) header) ∧
      (c!"<" ++ header ++ c!">" ∈ U.E.cfg.includesToAdd → IncludesHeader (s.text U.E) header) := by
  obtain ⟨st, bs, files, fs1, fs2, h⟩ := ends_done h
  refine ⟨_, generated_of_done h hw hn hd, ?_⟩
  intro s hsm
  obtain ⟨F, hF, rfl⟩ := List.mem_map.1 hsm
  obtain ⟨lines, e, _, _, hl⟩ := C11_include_block U.E.cfg F.includes
  obtain ⟨m1, m2, m3⟩ := moduleHeader_includes U.E.cfg o.stl
  have key : ∀ h, IncludesHeader (moduleHeader U.E.cfg o.stl) h → IncludesHeader ((sourceOf U o F).text U.E) h := by
    intro h hh
    have : ∃ rest, (sourceOf U o F).text U.E = (sourceOf U o F).head ++ rest := by
      unfold Source.text
      simp only [List.append_assoc]
      exact ⟨_, rfl⟩
    obtain ⟨rest, er⟩ := this
    have hh2 : (sourceOf U o F).head = generateIncludeDirectives U.E.cfg F.includes ++ moduleHeader U.E.cfg o.stl := rfl
    rw [er, hh2, e]
    exact includesHeader_more (includesHeader_append hh (includeLines_end lines))
  intro t header hc hp hu hh
  refine ⟨fun _ => key _ m1, fun hst => ?_, fun hm => key _ (m2 _ hm)⟩
  subst hst
  refine key _ (m3 ?_)
  rw [hs]
  obtain ⟨-, hp | hp | hp⟩ := hp
  · exact absurd hp hu
  · exfalso
    have hno : ∀ x ∈ conversions, x.2 = c!"pybind11/stl.h" → x.1 ∉ knownBuiltin [] := by decide +kernel
    refine hno _ hc rfl ((mem_knownBuiltin _ _).2 ?_)
    rcases hp with hp | hp
    · exact absurd hp hh
    · exact .inr hp
  · exact hp.1

/-- C116, partial: a type that `pybind11.h` or `stl.h` converts, and about which the user has said nothing, is left to pybind11 exactly if the header with
the conversion is one that every source includes; the exception is `bytearray`. -/
theorem C116_left_partial (E : Env) {t header : Str} (hc : (t, header) ∈ conversions) (hh : header = c!"pybind11/pybind11.h" ∨ header = c!"pybind11/stl.h")
    (h1 : t ∉ E.cfg.pythonBuiltins) (h2 : t ∉ E.cfg.notPythonBuiltins) (h3 : t ≠ E.holder) (h4 : t ≠ c!"pybind11::bytearray") :
    PythonHas E t ↔ (header = c!"pybind11/pybind11.h" ∨ E.opts.stl = true) := by
  have hp : ∀ x ∈ conversions, x.2 = c!"pybind11/pybind11.h" → x.1 = c!"pybind11::bytearray" ∨ x.1 ∈ knownBuiltin [] := by decide +kernel
  have hs : ∀ x ∈ conversions, x.2 = c!"pybind11/stl.h" → x.1 ∉ knownBuiltin [] ∧ x.1 ∈ convertedContainers.map (c!"std::" ++ ·) := by decide +kernel
  have he : t ≠ [] := by
    have : ∀ x ∈ conversions, x.1 ≠ [] := by decide +kernel
    exact this _ hc
  have hk : KnownPythonType E.holder t ↔ t ∈ knownBuiltin [] := by
    rw [mem_knownBuiltin]
    unfold KnownPythonType
    simp only [h3, he, false_or]
  unfold PythonHas
  rw [hk]
  rcases hh with rfl | rfl
  · rcases hp _ hc rfl with h | h
    · exact absurd h h4
    · simp [h, h2]
  · obtain ⟨h5, h6⟩ := hs _ hc rfl
    have h7 : ¬ c!"pybind11/stl.h" = c!"pybind11/pybind11.h" := by decide
    simp only [h1, h2, h5, not_false_eq_true, true_and, false_or, h7, and_iff_left_iff_imp]
    exact fun _ => h6

namespace Ex

def leftName : Ty → Str
  | .record i => [c!"std::function<void ()>", c!"std::complex<double>"].getD i []
  | t => exampleTyName t

/-- `namespace n { void f(std::function<void ()> g, std::complex<double> c); }` with `+namespace n` and further headers. -/
def left (add : List Str) : TransUnit :=
  { env := withClasses { exampleEnv with tyName := leftName, cfg := { namespacesToBind := [c!"n"], includesToAdd := add } }
      [exampleIn c!"std" c!"function" none, exampleIn c!"std" c!"complex" none]
    visits := [.cls 0, .cls 1,
      .fn { exampleMethod c!"f" false (.basic 0) [⟨c!"g", .record 0, false⟩, ⟨c!"c", .record 1, false⟩] with
        qname := c!"n::f", incl := c!"<n.h>", method := none }]
    inSystem := fun _ => false, depth := 20 }

end Ex

/-- C116 is false for functions and complex numbers: both are left to pybind11, a function that takes them is bound, and the source that binds it does not
include the headers with the conversions. -/
theorem C116_function_false : PythonHas (Ex.left []).E c!"std::function" ∧ PythonHas (Ex.left []).E c!"std::complex" ∧
    (c!"std::function", c!"pybind11/functional.h") ∈ conversions ∧ (c!"std::complex", c!"pybind11/complex.h") ∈ conversions ∧
    ∃ fs', (Ex.left []).Ends (Ex.opts 1000) Ex.fsEmpty (.done fs') ∧ ∃ text, fs'.files c!"out/n.cpp" = some text ∧
      c!"\tM(\"n\").def(\"f\", (int (*)(std::function<void ()>, std::complex<double>)) &n::f, " <:+: text ∧
      ¬ IncludesHeader text c!"pybind11/functional.h" ∧ ¬ IncludesHeader text c!"pybind11/complex.h" := by
  have hno : ∀ text header, ¬ c!"<" ++ header ++ c!">" <:+: text → ¬ IncludesHeader text header := by
    rintro text header hn ⟨x, y, rfl, -⟩
    exact hn ⟨x ++ c!"#include ", c!"\n" ++ y, by simp⟩
  obtain ⟨fs', h, hf⟩ := Ex.ends_after (U := Ex.left []) (n := 20) (o := Ex.opts 1000) (fs := Ex.fsEmpty)
    (P := fun fs => (fs.files c!"out/n.cpp").any fun text => decide (
      c!"\tM(\"n\").def(\"f\", (int (*)(std::function<void ()>, std::complex<double>)) &n::f, " <:+: text ∧
      ¬ c!"<pybind11/functional.h>" <:+: text ∧ ¬ c!"<pybind11/complex.h>" <:+: text)) (by decide +kernel)
  refine ⟨?_, ?_, by decide, by decide, fs', h, ?_⟩
  · exact ⟨by decide, .inr (.inl (.inr (.inl (by decide))))⟩
  · exact ⟨by decide, .inr (.inl (.inr (.inl (by decide))))⟩
  · cases e : fs'.files c!"out/n.cpp" with
    | none => rw [e] at hf; cases hf
    | some text =>
      rw [e] at hf
      have hf := of_decide_eq_true hf
      exact ⟨text, rfl, hf.1, hno _ _ hf.2.1, hno _ _ hf.2.2⟩

/-- With `+include <pybind11/functional.h>`, the run of `Ex.left` is one to which `C116_included_partial` applies, and the header is included. -/
example : ∃ fs' srcs, (Ex.left [c!"<pybind11/functional.h>"]).Ends (Ex.opts 1000 false true) Ex.fsEmpty (.done fs') ∧
    Generated (Ex.left [c!"<pybind11/functional.h>"]) (Ex.opts 1000 false true) Ex.fsEmpty fs' srcs ∧
    ∀ s ∈ srcs, IncludesHeader (s.text (Ex.left [c!"<pybind11/functional.h>"]).E) c!"pybind11/functional.h" ∧
      IncludesHeader (s.text (Ex.left [c!"<pybind11/functional.h>"]).E) c!"pybind11/pybind11.h" := by
  obtain ⟨fs', h, -⟩ : ∃ fs', (Ex.left [c!"<pybind11/functional.h>"]).Ends (Ex.opts 1000 false true) Ex.fsEmpty (.done fs') ∧ (fun _ => true) fs' = true :=
    Ex.ends_after (n := 20) (by decide +kernel)
  obtain ⟨srcs, hg, hr⟩ := C116_included_partial _ (Ex.opts 1000 false true) Ex.fsEmpty fs' Ex.fsEmpty_wf (by decide) (.inr (.inl rfl)) rfl h
  exact ⟨fs', srcs, h, hg, fun s hs =>
    ⟨(hr s hs c!"std::function" _ (by decide) ⟨by decide, .inr (.inl (.inr (.inl (by decide))))⟩ (by decide) (by decide)).2.2 (by decide),
     (hr s hs c!"std::pair" _ (by decide) ⟨by decide, .inr (.inl (.inr (.inl (by decide))))⟩ (by decide) (by decide)).1 rfl⟩⟩

/-- `std::vector` is left to pybind11 with `--include-pybind11-stl`, and bound without. -/
example : (c!"std::vector", c!"pybind11/stl.h") ∈ conversions ∧ PythonHas { exampleEnv with opts := { exampleEnv.opts with stl := true } } c!"std::vector" ∧
    ¬ PythonHas exampleEnv c!"std::vector" :=
  ⟨by decide, (C116_left_partial _ (by decide) (.inr rfl) (by decide) (by decide) (by decide) (by decide)).2 (.inr rfl),
   fun h => absurd ((C116_left_partial exampleEnv (t := c!"std::vector") (by decide) (.inr rfl) (by decide) (by decide) (by decide) (by decide)).1 h) (by decide)⟩

end Binder
