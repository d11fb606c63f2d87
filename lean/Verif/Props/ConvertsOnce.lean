import Verif.Lemmas.ImportExample
import Verif.Props.Converts

/-!
# C117: a type has a Python class or is converted, not both
-/

namespace Binder

open Cxx Spec

theorem first_line_eq {l m x y : Str} (hl : '\n' ∉ l) (hm : '\n' ∉ m) (h : l ++ '\n' :: x = m ++ '\n' :: y) : l = m ∧ x = y := by
  induction l generalizing m with
  | nil =>
    cases m with
    | nil => exact ⟨rfl, by simpa using h⟩
    | cons b m => exact absurd (by rw [List.nil_append, List.cons_append, List.cons.injEq] at h; rw [← h.1]; exact List.mem_cons_self ..) hm
  | cons a l ih =>
    cases m with
    | nil => exact absurd (by rw [List.nil_append, List.cons_append, List.cons.injEq] at h; rw [h.1]; exact List.mem_cons_self ..) hl
    | cons b m =>
      rw [List.cons_append, List.cons_append, List.cons.injEq] at h
      obtain ⟨h1, h2⟩ := ih (fun hh => hl (List.mem_cons_of_mem _ hh)) (fun hh => hm (List.mem_cons_of_mem _ hh)) h.2
      exact ⟨by rw [h.1, h1], h2⟩

/-- In a text made of lines, a header is included by one of the lines. -/
theorem includesHeader_lines {ls : List Str} {h : Str} (hls : ∀ l ∈ ls, '\n' ∉ l) (hh : '\n' ∉ h)
    (hi : IncludesHeader (ls.flatMap (· ++ c!"\n")) h) : c!"#include <" ++ h ++ c!">" ∈ ls := by
  have hL : '\n' ∉ c!"#include <" ++ h ++ c!">" := by
    simp only [List.mem_append, not_or]
    exact ⟨⟨by decide, hh⟩, by decide⟩
  induction ls with
  | nil =>
    obtain ⟨x, y, e, -⟩ := hi
    have := congrArg List.length e
    simp only [List.flatMap_nil, List.length_nil, List.length_append, List.length_cons] at this
    omega
  | cons l ls ih =>
    obtain ⟨x, y, e, hx⟩ := hi
    have e : l ++ '\n' :: ls.flatMap (· ++ c!"\n") = x ++ ((c!"#include <" ++ h ++ c!">") ++ '\n' :: y) := by
      rw [List.flatMap_cons] at e
      simpa using e
    rcases hx with rfl | hx
    · rw [List.nil_append] at e
      rw [(first_line_eq (hls l (List.mem_cons_self ..)) hL e).1]
      exact List.mem_cons_self ..
    · obtain ⟨u, v, rfl, hu⟩ := List.eq_append_cons_of_mem (List.mem_of_getLast? hx)
      rw [List.append_assoc, List.cons_append] at e
      obtain ⟨-, e2⟩ := first_line_eq (hls l (List.mem_cons_self ..)) hu e
      refine List.mem_cons_of_mem _ (ih (fun l hl => hls l (List.mem_cons_of_mem _ hl)) ⟨v, y, by rw [e2]; simp, ?_⟩)
      rw [List.getLast?_append, List.getLast?_cons] at hx
      cases v with
      | nil => exact .inl rfl
      | cons a v => right; simpa [List.getLast?_cons] using hx

/-- The lines that every source has after the headers of the declarations. -/
def headerLines (c : Config) (stl : Bool) : List Str :=
  let add := c.includesToAdd.map (c!"#include " ++ ·) ++ (if stl then [c!"#include <pybind11/stl.h>"] else [])
  [[], c!"#include <functional>", c!"#include <" ++ c.pybind11IncludeFile ++ c!">", c!"#include <string>"] ++ add ++ (if add = [] then [] else [[]]) ++
  [[], c!"#ifndef BINDER_PYBIND11_TYPE_CASTER", c!"\t#define BINDER_PYBIND11_TYPE_CASTER",
   c!"\tPYBIND11_DECLARE_HOLDER_TYPE(T, " ++ c.holderType ++ c!"<T>, false)", c!"\tPYBIND11_DECLARE_HOLDER_TYPE(T, T*, false)",
   c!"\tPYBIND11_MAKE_OPAQUE(" ++ c.holderType ++ c!"<void>)", c!"#endif", []]

theorem includesCode_lines (c : Config) (stl : Bool) : includesCode c stl =
    (c.includesToAdd.map (c!"#include " ++ ·) ++ (if stl then [c!"#include <pybind11/stl.h>"] else []) ++
      (if c.includesToAdd.map (c!"#include " ++ ·) ++ (if stl then [c!"#include <pybind11/stl.h>"] else []) = [] then [] else [[]])).flatMap (· ++ c!"\n") := by
  have hfold : ∀ (l : List Str) (a : Str), l.foldl (fun r i => r ++ c!"#include " ++ i ++ c!"\n") a = a ++ (l.map (c!"#include " ++ ·)).flatMap (· ++ c!"\n") := by
    intro l
    induction l with
    | nil => simp
    | cons x l ih => intro a; rw [List.foldl_cons, ih]; simp
  have hs : (if stl then c.includesToAdd.foldl (fun r i => r ++ c!"#include " ++ i ++ c!"\n") [] ++ c!"#include <pybind11/stl.h>\n"
      else c.includesToAdd.foldl (fun r i => r ++ c!"#include " ++ i ++ c!"\n") []) =
      (c.includesToAdd.map (c!"#include " ++ ·) ++ (if stl then [c!"#include <pybind11/stl.h>"] else [])).flatMap (· ++ c!"\n") := by
    rw [hfold, List.nil_append]
    cases stl <;> simp
  unfold includesCode
  simp only [hs]
  generalize c.includesToAdd.map (c!"#include " ++ ·) ++ (if stl then [c!"#include <pybind11/stl.h>"] else []) = add
  cases add with
  | nil => rfl
  | cons x add => simp

theorem moduleHeader_lines (c : Config) (stl : Bool) : moduleHeader c stl = (headerLines c stl).flatMap (· ++ c!"\n") := by
  have e1 : "\n#include <functional>\n".toList = c!"\n" ++ (c!"#include <functional>" ++ c!"\n") := by decide +kernel
  have e2 : "#include <".toList = c!"#include <" := by decide +kernel
  have e3 : "\n#include <string>\n".toList = c!"\n" ++ (c!"#include <string>" ++ c!"\n") := by decide +kernel
  have e4 : "\n#ifndef BINDER_PYBIND11_TYPE_CASTER\n\t#define BINDER_PYBIND11_TYPE_CASTER\n\t".toList =
    c!"\n" ++ (c!"#ifndef BINDER_PYBIND11_TYPE_CASTER" ++ (c!"\n" ++ (c!"\t#define BINDER_PYBIND11_TYPE_CASTER" ++ (c!"\n" ++ c!"\t")))) := by decide +kernel
  have e6 : "<T>, false)".toList = c!"<T>, false)" := by decide +kernel
  have e7 : "\n\tPYBIND11_DECLARE_HOLDER_TYPE(T, T*, false)\n\t".toList =
    c!"\n" ++ (c!"\tPYBIND11_DECLARE_HOLDER_TYPE(T, T*, false)" ++ (c!"\n" ++ c!"\t")) := by decide +kernel
  have e9 : "<void>)".toList = c!"<void>)" := by decide +kernel
  have e10 : "\n#endif\n\n".toList = c!"\n" ++ (c!"#endif" ++ (c!"\n" ++ c!"\n")) := by decide +kernel
  have t5 : c!"\tPYBIND11_DECLARE_HOLDER_TYPE(T, " = c!"\t" ++ "PYBIND11_DECLARE_HOLDER_TYPE(T, ".toList := by decide +kernel
  have t8 : c!"\tPYBIND11_MAKE_OPAQUE(" = c!"\t" ++ "PYBIND11_MAKE_OPAQUE(".toList := by decide +kernel
  unfold moduleHeader headerLines
  rw [e1, e2, e3, e4, e6, e7, e9, e10, includesCode_lines, t5, t8]
  generalize c.includesToAdd.map (c!"#include " ++ ·) ++ (if stl then [c!"#include <pybind11/stl.h>"] else []) = add
  generalize "PYBIND11_DECLARE_HOLDER_TYPE(T, ".toList = x1
  generalize "PYBIND11_MAKE_OPAQUE(".toList = x2
  generalize c!"#include <functional>" = x3
  generalize c!"#include <string>" = x4
  generalize c!"#include <" = x5
  generalize c!"#ifndef BINDER_PYBIND11_TYPE_CASTER" = x6
  generalize c!"\t#define BINDER_PYBIND11_TYPE_CASTER" = x7
  generalize c!"\tPYBIND11_DECLARE_HOLDER_TYPE(T, T*, false)" = x8
  generalize c!"<T>, false)" = x9
  generalize c!"<void>)" = x10
  generalize c!"#endif" = x11
  generalize c!">" = x12
  generalize c!"\t" = x13
  generalize c!"\n" = x14
  simp only [List.flatMap_append, List.flatMap_cons, List.flatMap_nil, List.append_assoc, List.nil_append, List.append_nil]

/-- Which headers the fixed part of a source includes. -/
theorem moduleHeader_includes_iff {c : Config} {stl : Bool} {h : Str} (h1 : '\n' ∉ c.pybind11IncludeFile) (h2 : '\n' ∉ c.holderType)
    (h3 : ∀ i ∈ c.includesToAdd, '\n' ∉ i) (hh : '\n' ∉ h) (hf : h ≠ c!"functional") (hst : h ≠ c!"string") :
    IncludesHeader (moduleHeader c stl) h ↔ h = c.pybind11IncludeFile ∨ c!"<" ++ h ++ c!">" ∈ c.includesToAdd ∨ (stl = true ∧ h = c!"pybind11/stl.h") := by
  obtain ⟨m1, m2, m3⟩ := moduleHeader_includes c stl
  have hemp : ∀ {p : Prop} [Decidable p] {x : Str}, x ∈ (if p then [] else [[]]) → x = [] := by
    intro p _ x hx
    split at hx
    · cases hx
    · exact List.mem_singleton.1 hx
  constructor
  · intro hi
    rw [moduleHeader_lines] at hi
    have key := includesHeader_lines ?_ hh hi
    · have cancel : ∀ {u v : Str}, c!"#include <" ++ u ++ c!">" = c!"#include <" ++ v ++ c!">" → u = v := by
        intro u v e
        rw [List.append_assoc, List.append_assoc] at e
        exact List.append_cancel_right (List.append_cancel_left e)
      have other : ∀ (a : Char) (r : Str), a ≠ '#' → c!"#include <" ++ h ++ c!">" ≠ a :: r := by
        intro a r ha e
        rw [List.cons_append, List.cons_append, List.cons.injEq] at e
        exact ha e.1.symm
      have other2 : ∀ (a : Char) (r : Str), a ≠ 'i' → c!"#include <" ++ h ++ c!">" ≠ '#' :: a :: r := by
        intro a r ha e
        rw [List.cons_append, List.cons_append, List.cons.injEq, List.cons_append, List.cons_append, List.cons.injEq] at e
        exact ha e.2.1.symm
      unfold headerLines at key
      simp only [List.mem_append] at key
      rcases key with ((key | key | key) | key) | key
      · simp only [List.mem_cons, List.not_mem_nil, or_false] at key
        rcases key with key | key | key | key
        · cases key
        · exact absurd (cancel (v := c!"functional") key) hf
        · exact .inl (cancel key)
        · exact absurd (cancel (v := c!"string") key) hst
      · obtain ⟨i, hi, e⟩ := List.mem_map.1 key
        refine .inr (.inl ?_)
        have : i = c!"<" ++ h ++ c!">" := List.append_cancel_left (as := c!"#include ") (by rw [e]; rfl)
        rwa [← this]
      · split at key
        · next hs => exact .inr (.inr ⟨hs, cancel (v := c!"pybind11/stl.h") (List.mem_singleton.1 key)⟩)
        · cases key
      · exact absurd (hemp key) (by intro e; cases e)
      · simp only [List.mem_cons, List.not_mem_nil, or_false] at key
        rcases key with key | key | key | key | key | key | key | key
        · cases key
        · have := List.cons.inj (List.cons.inj (List.cons.inj key).2).2
          exact absurd this.1 (by decide)
        · exact absurd key (other _ _ (by decide))
        · exact absurd key (other _ _ (by decide))
        · exact absurd key (other _ _ (by decide))
        · exact absurd key (other _ _ (by decide))
        · exact absurd key (other2 _ _ (by decide))
        · cases key
    · intro l hl
      unfold headerLines at hl
      simp only [List.mem_append] at hl
      rcases hl with ((hl | hl | hl) | hl) | hl
      · simp only [List.mem_cons, List.not_mem_nil, or_false] at hl
        rcases hl with rfl | rfl | rfl | rfl
        · decide
        · decide
        · simp only [List.mem_append, not_or]; exact ⟨⟨by decide, h1⟩, by decide⟩
        · decide
      · obtain ⟨i, hi, rfl⟩ := List.mem_map.1 hl
        simp only [List.mem_append, not_or]; exact ⟨by decide, h3 i hi⟩
      · split at hl
        · rw [List.mem_singleton.1 hl]; decide
        · cases hl
      · rw [hemp hl]; decide
      · simp only [List.mem_cons, List.not_mem_nil, or_false] at hl
        rcases hl with rfl | rfl | rfl | rfl | rfl | rfl | rfl | rfl
        · decide
        · decide
        · decide
        · simp only [List.mem_append, not_or]; exact ⟨⟨by decide, h2⟩, by decide⟩
        · decide
        · simp only [List.mem_append, not_or]; exact ⟨⟨by decide, h2⟩, by decide⟩
        · decide
        · decide
  · rintro (rfl | hm | ⟨hs, rfl⟩)
    · exact m1
    · exact m2 _ hm
    · exact m3 hs

/-- C117, partial: let a run bind a class for a type that pybind11 can convert, and let the user not have denied that Python has the type. Then the
conversion is that of `stl.h`, and a source includes this header, after the headers of the declarations bound in it, only if the user has asked for it.
Missing: types of which the user says that Python does not have them, and headers that the user adds; `bytearray`. -/
theorem C117_once_partial (U : TransUnit) (o : Opts) (fs fs' : FS) (hw : fs.WF) (hn : U.visits.length + 1 < 2 ^ 32)
    (hd : DistinctNames U o) (hs : o.stl = U.E.opts.stl) (h1 : '\n' ∉ U.E.cfg.pybind11IncludeFile) (h2 : '\n' ∉ U.E.cfg.holderType)
    (h3 : ∀ i ∈ U.E.cfg.includesToAdd, '\n' ∉ i) (h : U.Ends o fs (.done fs')) :
    ∃ srcs, Generated U o fs fs' srcs ∧ ∀ j ∈ registered U.E srcs, ∀ t header, t = stdName U.E (U.E.cls j).qname → (t, header) ∈ conversions →
      t ∉ U.E.cfg.notPythonBuiltins → t ≠ c!"pybind11::bytearray" →
      header = c!"pybind11/stl.h" ∧ ∀ s ∈ srcs, ∃ (lines : List Str) (rest : Str), s.head = lines.flatMap (fun x => c!"#include " ++ x ++ c!"\n") ++ rest ∧
        (IncludesHeader rest header ↔ header = U.E.cfg.pybind11IncludeFile ∨ c!"<" ++ header ++ c!">" ∈ U.E.cfg.includesToAdd) := by
  obtain ⟨st, bs, files, fs1, fs2, h⟩ := ends_done h
  have hg := generated_of_done h hw hn hd
  refine ⟨_, hg, ?_⟩
  intro j hj t header ht hc hnot hb
  have hp := (hg.never_bound.2 j hj).2
  rw [← ht] at hp
  have hk : t ∉ knownBuiltin [] := by
    intro hm
    exact hp ⟨hnot, .inr (.inl ((mem_knownBuiltin _ _).1 hm |>.elim
      (fun e => by
        subst e
        have : ∀ x ∈ conversions, x.1 ≠ [] := by decide +kernel
        exact absurd rfl (this _ hc)) .inr))⟩
  have hrow : ∀ x ∈ conversions, x.1 ≠ c!"pybind11::bytearray" → x.1 ∉ knownBuiltin [] →
      x.2 = c!"pybind11/stl.h" ∧ x.1 ∈ convertedContainers.map (c!"std::" ++ ·) := by decide +kernel
  obtain ⟨rfl, hcont⟩ := hrow _ hc hb hk
  refine ⟨rfl, ?_⟩
  have hstl : ¬ U.E.opts.stl = true := fun hh => hp ⟨hnot, .inr (.inr ⟨hh, hcont⟩)⟩
  intro s hsm
  obtain ⟨F, hF, rfl⟩ := List.mem_map.1 hsm
  obtain ⟨lines, e, _, _, hl⟩ := C11_include_block U.E.cfg F.includes
  refine ⟨lines, moduleHeader U.E.cfg o.stl, by rw [sourceOf, e], ?_⟩
  rw [moduleHeader_includes_iff h1 h2 h3 (by decide) (by decide) (by decide), hs]
  simp only [hstl, false_and, or_false, Bool.false_eq_true]

namespace Ex

def vecName : Ty → Str
  | .record _ => c!"std::vector<int>"
  | t => exampleTyName t

/-- `namespace n { void f(std::vector<int> v); }` with `+namespace n` and `+namespace std`, further headers, types that Python does not have, and `--include-pybind11-stl`. -/
def vec (add denied : List Str) (stl : Bool) : TransUnit :=
  { env := withClasses { exampleEnv with tyName := vecName, cfg := { namespacesToBind := [c!"n", c!"std"], includesToAdd := add, notPythonBuiltins := denied }
                                         opts := { exampleEnv.opts with stl := stl } }
      [exampleIn c!"std" c!"vector" none]
    visits := [.cls 0,
      .fn { exampleMethod c!"f" false (.basic 0) [⟨c!"v", .record 0, false⟩] with qname := c!"n::f", incl := c!"<n.h>", method := none }]
    inSystem := fun _ => false, depth := 20 }

end Ex

/-- C117 is false if the user adds `stl.h` in place of asking for it with the option, or says with `-python_builtin` that Python does not have a container
although the option is given: the sources bind a class for `std::vector` and include the header that converts it, so that `f` takes and makes lists. -/
theorem C117_both_false : (c!"std::vector", c!"pybind11/stl.h") ∈ conversions ∧
    ∀ x ∈ [([c!"<pybind11/stl.h>"], ([] : List Str), false), ([], [c!"std::vector"], true)],
    ∃ fs', (Ex.vec x.1 x.2.1 x.2.2).Ends { Ex.opts 1000 with stl := x.2.2 } Ex.fsEmpty (.done fs') ∧
      (∃ text, fs'.files c!"out/std/std.cpp" = some text ∧
        c!"\t\tpybind11::class_<std::vector, std::shared_ptr<std::vector>> cl(M(\"std\"), \"vector\", \"\");\n" <:+: text) ∧
      ∃ text, fs'.files c!"out/n.cpp" = some text ∧ c!"\tM(\"n\").def(\"f\", (int (*)(std::vector<int>)) &n::f, " <:+: text ∧
        IncludesHeader text c!"pybind11/stl.h" := by
  refine ⟨by decide, ?_⟩
  have key : ∀ (add denied : List Str) (stl : Bool),
      ((Ex.after ((Ex.vec add denied stl).runF 20 { Ex.opts 1000 with stl := stl } Ex.fsEmpty)).any fun fs =>
        ((fs.files c!"out/std/std.cpp").any fun text => decide (
          c!"\t\tpybind11::class_<std::vector, std::shared_ptr<std::vector>> cl(M(\"std\"), \"vector\", \"\");\n" <:+: text)) &&
        ((fs.files c!"out/n.cpp").any fun text => decide (
          c!"\tM(\"n\").def(\"f\", (int (*)(std::vector<int>)) &n::f, " <:+: text ∧ c!"\n#include <pybind11/stl.h>\n" <:+: text))) = true →
      ∃ fs', (Ex.vec add denied stl).Ends { Ex.opts 1000 with stl := stl } Ex.fsEmpty (.done fs') ∧
        (∃ text, fs'.files c!"out/std/std.cpp" = some text ∧
          c!"\t\tpybind11::class_<std::vector, std::shared_ptr<std::vector>> cl(M(\"std\"), \"vector\", \"\");\n" <:+: text) ∧
        ∃ text, fs'.files c!"out/n.cpp" = some text ∧ c!"\tM(\"n\").def(\"f\", (int (*)(std::vector<int>)) &n::f, " <:+: text ∧
          IncludesHeader text c!"pybind11/stl.h" := by
    intro add denied stl h
    obtain ⟨fs', h, hf⟩ := Ex.ends_after h
    rw [Bool.and_eq_true] at hf
    obtain ⟨h1, h2⟩ := hf
    refine ⟨fs', h, ?_, ?_⟩
    · cases e : fs'.files c!"out/std/std.cpp" with
      | none => rw [e] at h1; cases h1
      | some text => rw [e] at h1; exact ⟨text, rfl, of_decide_eq_true h1⟩
    · cases e : fs'.files c!"out/n.cpp" with
      | none => rw [e] at h2; cases h2
      | some text =>
        rw [e] at h2
        obtain ⟨h3, x, y, h4⟩ := of_decide_eq_true h2
        exact ⟨text, rfl, h3, x ++ c!"\n", y, by rw [← h4]; simp, .inr (by rw [List.getLast?_append]; rfl)⟩
  simp only [List.forall_mem_cons]
  exact ⟨key _ _ _ (by decide +kernel), key _ _ _ (by decide +kernel), by simp⟩

/-- Runs to which `C117_once_partial` applies: `std::vector` is bound, and `stl.h` is included exactly if the user adds it. -/
example (b : Bool) : ∃ fs' srcs, (Ex.vec (if b then [c!"<pybind11/stl.h>"] else []) [] false).Ends (Ex.opts 1000 false true) Ex.fsEmpty (.done fs') ∧
    Generated (Ex.vec (if b then [c!"<pybind11/stl.h>"] else []) [] false) (Ex.opts 1000 false true) Ex.fsEmpty fs' srcs ∧
    0 ∈ registered (Ex.vec (if b then [c!"<pybind11/stl.h>"] else []) [] false).E srcs ∧
    ∀ s ∈ srcs, ∃ (lines : List Str) (rest : Str), s.head = lines.flatMap (fun x => c!"#include " ++ x ++ c!"\n") ++ rest ∧
      (IncludesHeader rest c!"pybind11/stl.h" ↔ b = true) := by
  obtain ⟨fs', h, -⟩ : ∃ fs', (Ex.vec (if b then [c!"<pybind11/stl.h>"] else []) [] false).Ends (Ex.opts 1000 false true) Ex.fsEmpty (.done fs') ∧
      (fun _ => true) fs' = true := by
    cases b <;> exact Ex.ends_after (n := 20) (by decide +kernel)
  obtain ⟨srcs, hg, hr⟩ := C117_once_partial _ (Ex.opts 1000 false true) Ex.fsEmpty fs' Ex.fsEmpty_wf (by cases b <;> decide) (.inr (.inl rfl)) rfl
    (by cases b <;> decide +kernel) (by cases b <;> decide +kernel) (by cases b <;> decide +kernel) h
  have h0 : 0 ∈ registered (Ex.vec (if b then [c!"<pybind11/stl.h>"] else []) [] false).E srcs := by
    refine List.mem_flatMap.2 ⟨.cls 0, (hg.exactly _).2 ⟨?_, rfl⟩, by cases b <;> decide +kernel⟩
    cases b <;>
    · refine Ex.asked (by decide +kernel) True.intro (by decide +kernel) ?_ rfl (by decide +kernel)
      unfold Converted; decide +kernel
  refine ⟨fs', srcs, h, hg, h0, ?_⟩
  intro s hs
  obtain ⟨lines, rest, e, hi⟩ := (hr 0 h0 c!"std::vector" c!"pybind11/stl.h" (by cases b <;> decide +kernel) (by decide) (by cases b <;> decide) (by decide)).2 s hs
  refine ⟨lines, rest, e, hi.trans ?_⟩
  cases b <;> decide +kernel

end Binder
