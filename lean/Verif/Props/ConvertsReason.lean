import Verif.Props.ConvertsOnce
import Verif.Props.Wants

/-!
# C117: the reasons for which a source includes the conversions
-/

namespace Binder

open Cxx Spec

theorem includesHeader_cons {l t h : Str} (hl : '\n' ∉ l) (hh : '\n' ∉ h) :
    IncludesHeader (l ++ c!"\n" ++ t) h ↔ l = c!"#include <" ++ h ++ c!">" ∨ IncludesHeader t h := by
  have hL : '\n' ∉ c!"#include <" ++ h ++ c!">" := by
    simp only [List.mem_append, not_or]
    exact ⟨⟨by decide, hh⟩, by decide⟩
  constructor
  · rintro ⟨x, y, e, hx⟩
    have e : l ++ '\n' :: t = x ++ ((c!"#include <" ++ h ++ c!">") ++ '\n' :: y) := by
      have : l ++ c!"\n" ++ t = l ++ '\n' :: t := by rw [List.append_assoc]; rfl
      rw [← this, e]
      simp only [List.append_assoc]
      rfl
    by_cases hnl : '\n' ∈ x
    · obtain ⟨m, z, rfl, hm⟩ := List.eq_append_cons_of_mem hnl
      rw [List.append_assoc, List.cons_append] at e
      obtain ⟨rfl, rfl⟩ := first_line_eq hl hm e
      refine .inr ⟨z, y, by simp only [List.append_assoc]; rfl, ?_⟩
      rcases hx with hx | hx
      · simp at hx
      · cases z with
        | nil => exact .inl rfl
        | cons c z =>
          right
          rw [List.getLast?_append, List.getLast?_cons_cons] at hx
          cases hz : (c :: z).getLast? with
          | none => simp at hz
          | some d =>
            rw [hz] at hx
            exact hx
    · have hx0 : x = [] := by
        rcases hx with hx | hx
        · exact hx
        · exact absurd (List.mem_of_getLast? hx) hnl
      subst hx0
      rw [List.nil_append] at e
      exact .inl (first_line_eq hl hL e).1
  · rintro (rfl | ⟨x, y, rfl, hx⟩)
    · refine ⟨[], t, ?_, .inl rfl⟩
      simp only [List.append_assoc, List.nil_append]
      rfl
    · refine ⟨l ++ c!"\n" ++ x, y, by simp only [List.append_assoc], .inr ?_⟩
      rcases hx with rfl | hx
      · rw [List.append_nil, List.getLast?_append]; rfl
      · rw [List.getLast?_append, hx]; rfl

/-- Which headers a text includes that begins with include lines. -/
theorem includesHeader_block {lines : List Str} {rest h : Str} (hl : ∀ x ∈ lines, '\n' ∉ x) (hh : '\n' ∉ h) :
    IncludesHeader (lines.flatMap (fun x => c!"#include " ++ x ++ c!"\n") ++ rest) h ↔ c!"<" ++ h ++ c!">" ∈ lines ∨ IncludesHeader rest h := by
  induction lines with
  | nil => simp
  | cons x lines ih =>
    have hx : '\n' ∉ c!"#include " ++ x := by
      rw [List.mem_append, not_or]
      exact ⟨by decide, hl x List.mem_cons_self⟩
    rw [List.flatMap_cons, List.append_assoc, includesHeader_cons hx hh, ih fun y hy => hl y (List.mem_cons_of_mem _ hy), List.mem_cons, or_assoc]
    refine or_congr_left ?_
    have : c!"#include <" ++ h ++ c!">" = c!"#include " ++ (c!"<" ++ h ++ c!">") := by simp only [List.append_assoc]; rfl
    rw [this, List.append_cancel_left_eq, eq_comm]

/-- **C117, part.** Let a run bind a class for a type that pybind11 can convert, and let the user not have denied that Python has the type. Then
the conversion is that of `stl.h`, and a source includes this header, anywhere in its head, exactly if the user has asked for it, or for one
of the reasons for which headers of declarations are included: the user has named it for the namespace, or a declaration bound in the
source wants it. Missing: types of which the user says that Python does not have them; `bytearray`. -/
theorem C117_reason_partial (U : TransUnit) (o : Opts) (fs fs' : FS) (hw : fs.WF) (hn : U.visits.length + 1 < 2 ^ 32)
    (hd : DistinctNames U o) (hs : o.stl = U.E.opts.stl) (h1 : '\n' ∉ U.E.cfg.pybind11IncludeFile) (h2 : '\n' ∉ U.E.cfg.holderType)
    (h3 : ∀ i ∈ U.E.cfg.includesToAdd, '\n' ∉ i) (h : U.Ends o fs (.done fs')) :
    ∃ srcs, Generated U o fs fs' srcs ∧ ∀ j ∈ registered U.E srcs, ∀ t header, t = stdName U.E (U.E.cls j).qname → (t, header) ∈ conversions →
      t ∉ U.E.cfg.notPythonBuiltins → t ≠ c!"pybind11::bytearray" →
      header = c!"pybind11/stl.h" ∧ ∀ s ∈ srcs, ∃ (lines : List Str) (rest ns : Str),
        s.head = lines.flatMap (fun x => c!"#include " ++ x ++ c!"\n") ++ rest ∧ (∀ v ∈ s.bound, namespaceOf U.E v = ns) ∧
        (∀ x ∈ lines, x ∈ U.E.cfg.namespaceIncludes ns ∨ (o.trace = true ∧ x = traceInclude o ∧ ∃ n name, Stmt.traces n name ∈ s.stmts) ∨
          ∃ v ∈ s.bound, Wants U.E v x) ∧
        ((∀ x ∈ lines, '\n' ∉ x) →
          (IncludesHeader s.head header ↔
            c!"<" ++ header ++ c!">" ∈ lines ∨ header = U.E.cfg.pybind11IncludeFile ∨ c!"<" ++ header ++ c!">" ∈ U.E.cfg.includesToAdd)) := by
  obtain ⟨srcs, hg, hl⟩ := C76_only U o fs fs' hw hn hd h
  refine ⟨srcs, hg, ?_⟩
  intro j hj t header ht hc hnot hb
  have hp := (hg.never_bound.2 j hj).2
  rw [← ht] at hp
  have hk : t ∉ knownBuiltin [] := by
    intro hm
    exact hp ⟨hnot, .inr (.inl ((mem_knownBuiltin _ _).1 hm |>.elim
      (fun e => by
        subst e
        have : ∀ x ∈ conversions, x.1 ≠ [] := by decide +kernel
        exact absurd rfl (this _ hc)) .inr))⟩
  have hrow : ∀ x ∈ conversions, x.1 ≠ c!"pybind11::bytearray" → x.1 ∉ knownBuiltin [] →
      x.2 = c!"pybind11/stl.h" ∧ x.1 ∈ convertedContainers.map (c!"std::" ++ ·) := by decide +kernel
  obtain ⟨rfl, hcont⟩ := hrow _ hc hb hk
  refine ⟨rfl, fun s hsm => ?_⟩
  have hstl : ¬ U.E.opts.stl = true := fun hh => hp ⟨hnot, .inr (.inr ⟨hh, hcont⟩)⟩
  obtain ⟨lines, ns, e, -, hns, hx⟩ := hl s hsm
  refine ⟨lines, _, ns, e, hns, fun x hm => (hx x hm).2, fun hnl => ?_⟩
  rw [e, includesHeader_block hnl (by decide), moduleHeader_includes_iff h1 h2 h3 (by decide) (by decide) (by decide), hs]
  simp only [hstl, false_and, or_false, Bool.false_eq_true]

/-- Runs to which `C117_reason_partial` applies: `std::vector` is bound. -/
example (b : Bool) : ∃ fs' srcs, (Ex.vec (if b then [c!"<pybind11/stl.h>"] else []) [] false).Ends (Ex.opts 1000 false true) Ex.fsEmpty (.done fs') ∧
    Generated (Ex.vec (if b then [c!"<pybind11/stl.h>"] else []) [] false) (Ex.opts 1000 false true) Ex.fsEmpty fs' srcs ∧
    0 ∈ registered (Ex.vec (if b then [c!"<pybind11/stl.h>"] else []) [] false).E srcs ∧
    ∀ s ∈ srcs, ∃ lines : List Str, (∀ x ∈ lines, '\n' ∉ x) → (IncludesHeader s.head c!"pybind11/stl.h" ↔ c!"<pybind11/stl.h>" ∈ lines ∨ b = true) := by
  obtain ⟨fs', h, -⟩ : ∃ fs', (Ex.vec (if b then [c!"<pybind11/stl.h>"] else []) [] false).Ends (Ex.opts 1000 false true) Ex.fsEmpty (.done fs') ∧
      (fun _ => true) fs' = true := by
    cases b <;> exact Ex.ends_after (n := 20) (by decide +kernel)
  obtain ⟨srcs, hg, hr⟩ := C117_reason_partial _ (Ex.opts 1000 false true) Ex.fsEmpty fs' Ex.fsEmpty_wf (by cases b <;> decide) (.inr (.inl rfl)) rfl
    (by cases b <;> decide +kernel) (by cases b <;> decide +kernel) (by cases b <;> decide +kernel) h
  have h0 : 0 ∈ registered (Ex.vec (if b then [c!"<pybind11/stl.h>"] else []) [] false).E srcs := by
    refine List.mem_flatMap.2 ⟨.cls 0, (hg.exactly _).2 ⟨?_, rfl⟩, by cases b <;> decide +kernel⟩
    cases b <;>
    · refine Ex.asked (by decide +kernel) True.intro (by decide +kernel) ?_ rfl (by decide +kernel)
      unfold Converted; decide +kernel
  refine ⟨fs', srcs, h, hg, h0, ?_⟩
  intro s hs
  obtain ⟨lines, _, _, _, _, _, hi⟩ :=
    (hr 0 h0 c!"std::vector" c!"pybind11/stl.h" (by cases b <;> decide +kernel) (by decide) (by cases b <;> decide) (by decide)).2 s hs
  refine ⟨lines, fun hn => (hi hn).trans (or_congr_right ?_)⟩
  cases b <;> decide +kernel

end Binder
