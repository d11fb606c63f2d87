import Verif.Props.Run
import Verif.Props.Config
import Verif.Spec.Builtin

/-!
# C107: what is never bound

Names reserved for the implementation of the standard library, and types that Python has already.
-/

namespace Binder

open Cxx Spec

/-- The qualified name of a declaration as clang gives it. -/
def declaredName (E : Env) : Visit → Str
  | .fn F => F.qname
  | .cls i => (E.cls i).qname
  | .enm i => (E.enumD i).qname

/-- The user, the tool or pybind11 says that Python has this type, and the user does not deny it. -/
def PythonHas (E : Env) (name : Str) : Prop :=
  name ∉ E.cfg.notPythonBuiltins ∧
    (name ∈ E.cfg.pythonBuiltins ∨ KnownPythonType E.holder name ∨ (E.opts.stl = true ∧ ConvertedContainer name))

theorem builtinDecl_iff (E : Env) (q : Str) : builtinDecl E q = true ↔ PythonHas E (stdName E q) := by
  rw [builtinDecl, C09_python_builtin, PythonHas]

theorem bannedDecl_iff (E : Env) (q : Str) : bannedDecl E q = true ↔ ReservedName (stdName E q) := by
  rw [bannedDecl, isBannedSymbol_iff]

theorem classBindable_not_banned {E : Env} {i : Nat} (h : classBindable E i = true) : bannedDecl E (E.cls i).qname = false := by
  cases hb : bannedDecl E (E.cls i).qname with
  | false => rfl
  | true =>
    rw [classBindable, classBindableF] at h
    simp only [hb, Bool.not_true, ite_self] at h
    cases h

theorem Spec.Reached.standalone {U : TransUnit} {v : Visit} (h : Reached U v) : Standalone U.E v := by
  have key : ∀ {l : List Visit}, v ∈ firstOfName U.E l → v ∈ l := by
    intro l
    induction l with
    | nil => intro h; cases h
    | cons w l ih =>
      intro h
      rw [firstOfName, List.mem_cons] at h
      rcases h with h | h
      · exact h ▸ List.mem_cons_self ..
      · exact List.mem_cons_of_mem _ (ih (List.mem_filter.1 h).1)
  have := (List.mem_filter.1 (key h.considered)).2
  simpa using this

theorem registersF_clean {E : Env} {n i j : Nat} (h : j ∈ registersF E n i) (hi : bannedDecl E (E.cls i).qname = false) :
    builtinDecl E (E.cls j).qname = false ∧ bannedDecl E (E.cls j).qname = false := by
  induction n generalizing i with
  | zero => cases h
  | succ n ih =>
    rw [registersF] at h
    cases hb : builtinDecl E (E.cls i).qname with
    | true => rw [hb] at h; cases h
    | false =>
      simp only [hb, Bool.false_eq_true, if_false] at h
      split at h
      · rw [List.mem_singleton] at h; subst h; exact ⟨hb, hi⟩
      · rcases List.mem_append.1 h with h | h
        · split at h
          · cases h
          · rw [List.mem_singleton] at h; subst h; exact ⟨hb, hi⟩
        · obtain ⟨k, hk, hj⟩ := List.mem_flatMap.1 h
          exact ih hj (classBindable_not_banned (List.mem_filter.1 hk).2)

theorem Spec.Generated.never_bound {U : TransUnit} {o : Opts} {fs fs' : FS} {srcs : List Source} (hg : Generated U o fs fs' srcs) :
    (∀ s ∈ srcs, ∀ v ∈ s.bound, ¬ ReservedName (stdName U.E (declaredName U.E v)) ∧ ¬ PythonHas U.E (stdName U.E (declaredName U.E v))) ∧
    (∀ j ∈ registered U.E srcs, ¬ ReservedName (stdName U.E (U.E.cls j).qname) ∧ ¬ PythonHas U.E (stdName U.E (U.E.cls j).qname)) := by
  have key : ∀ v ∈ srcs.flatMap Source.bound,
      ¬ ReservedName (stdName U.E (declaredName U.E v)) ∧ ¬ PythonHas U.E (stdName U.E (declaredName U.E v)) := by
    intro v hv
    have hr := ((hg.exactly v).1 hv).1
    have hs := hr.standalone
    have ha := hr.allowed
    rw [← bannedDecl_iff, ← builtinDecl_iff]
    refine ⟨?_, ?_⟩
    · cases v with
      | fn F =>
        have := hs.2
        simp only [functionBindable, Bool.and_eq_true, Bool.not_eq_true'] at this
        simp [declaredName, this.2]
      | cls i => simp [declaredName, classBindable_not_banned hs.2]
      | enm i => have := ha.possible.2; simp [declaredName, this]
    · have := ha.notConverted
      cases v <;> exact this
  refine ⟨fun s hs v hv => key v (List.mem_flatMap.2 ⟨s, hs, hv⟩), ?_⟩
  intro j hj
  obtain ⟨v, hv, hjv⟩ := List.mem_flatMap.1 hj
  rw [← bannedDecl_iff, ← builtinDecl_iff]
  cases v with
  | fn F => cases hjv
  | enm i => cases hjv
  | cls i =>
    have hk := (key _ hv).1
    rw [← bannedDecl_iff] at hk
    have := registersF_clean hjv (by simpa [declaredName] using hk)
    simp [this]

/-- C107. A run binds nothing whose name is reserved for the implementation of the standard library, and nothing that Python has already;
this includes the classes that are registered because they are nested in others. -/
theorem C107_never_bound (U : TransUnit) (o : Opts) (fs fs' : FS) (hw : fs.WF) (hn : U.visits.length + 1 < 2 ^ 32)
    (hd : DistinctNames U o) (h : U.Ends o fs (.done fs')) :
    ∃ srcs, Generated U o fs fs' srcs ∧
      (∀ s ∈ srcs, ∀ v ∈ s.bound, ¬ ReservedName (stdName U.E (declaredName U.E v)) ∧ ¬ PythonHas U.E (stdName U.E (declaredName U.E v))) ∧
      (∀ j ∈ registered U.E srcs, ¬ ReservedName (stdName U.E (U.E.cls j).qname) ∧ ¬ PythonHas U.E (stdName U.E (U.E.cls j).qname)) := by
  obtain ⟨srcs, hg⟩ := C69_exactly_once U o fs fs' hw hn hd h
  exact ⟨srcs, hg, hg.never_bound⟩

/-- Names that do not begin with `std::` and contain nothing to be replaced are normal already. -/
theorem pybind_names (E : Env) : ∀ w ∈ pythonObjects, stdName E (c!"pybind11::" ++ w) = c!"pybind11::" ++ w := by
  have h : ∀ w ∈ pythonObjects, beginsWith (applyNameMap (c!"pybind11::" ++ w)) c!"std::" = false ∧
      fixBooleanTypes (applyNameMap (c!"pybind11::" ++ w)) = c!"pybind11::" ++ w := by decide +kernel
  intro w hw
  simp only [stdName, standardName, (h w hw).1, Bool.false_eq_true, if_false, (h w hw).2]

/-- C107, partial: the classes with which pybind11 stands for Python objects are not bound, unless the user asks for it, except
`bytearray` and `dtype`. -/
theorem C107_objects_partial (U : TransUnit) (o : Opts) (fs fs' : FS) (hw : fs.WF) (hn : U.visits.length + 1 < 2 ^ 32)
    (hd : DistinctNames U o) (h : U.Ends o fs (.done fs')) :
    ∃ srcs, Generated U o fs fs' srcs ∧ ∀ w ∈ pythonObjects, w ≠ c!"bytearray" → w ≠ c!"dtype" →
      c!"pybind11::" ++ w ∉ U.E.cfg.notPythonBuiltins → ∀ j ∈ registered U.E srcs, (U.E.cls j).qname ≠ c!"pybind11::" ++ w := by
  obtain ⟨srcs, hg, -, hr⟩ := C107_never_bound U o fs fs' hw hn hd h
  refine ⟨srcs, hg, ?_⟩
  intro w hwm h1 h2 hnot j hj hq
  have := (hr j hj).2
  rw [hq, pybind_names _ w hwm] at this
  refine this ⟨hnot, .inr (.inl (.inr (.inr (.inl ⟨List.mem_map_of_mem hwm, ?_⟩))))⟩
  intro hm
  obtain ⟨u, hu, e⟩ := List.mem_map.1 hm
  have e := List.append_cancel_left e
  subst e
  simp only [unknownPythonObjects, List.mem_cons, List.not_mem_nil, or_false] at hu
  rcases hu with rfl | rfl
  · exact h1 rfl
  · exact h2 rfl

namespace Ex

def bytesName : Ty → Str
  | .record i => [c!"pybind11::bytearray", c!"pybind11::object"].getD i []
  | t => exampleTyName t

/-- `namespace n { void f(pybind11::bytearray b); }` with `+namespace n`. -/
def bytes : TransUnit :=
  { env := withClasses { exampleEnv with
        tyName := bytesName, cfg := { namespacesToBind := [c!"n"] }, baseRank := fun i => 1 - i }
      [exampleIn c!"pybind11" c!"bytearray" (some 1), exampleIn c!"pybind11" c!"object" none]
    visits := [.cls 1, .cls 0,
      .fn { exampleMethod c!"f" false (.basic 0) [⟨c!"b", .record 0, false⟩] with qname := c!"n::f", incl := c!"<n.h>", method := none }]
    inSystem := fun _ => false, depth := 20 }

end Ex

theorem Ex.bytes_wellfounded : Ex.bytes.env.Wellfounded := wellfounded_of_ranked (by decide)

/-- C107 fails for `bytearray`, the name of which is misspelt in the table: for `void f(pybind11::bytearray b)` a class is bound, whose
base `pybind11::object` is known to the tool and therefore never registered. The module cannot be imported. -/
theorem C107_bytearray_false : Ex.bytes.env.Wellfounded ∧ c!"bytearray" ∈ pythonObjects ∧
    ∃ fs', Ex.bytes.Ends (Ex.opts 1000) Ex.fsEmpty (.done fs') ∧ ∃ text, fs'.files c!"out/pybind11.cpp" = some text ∧
      c!"\t\tpybind11::class_<pybind11::bytearray, std::shared_ptr<pybind11::bytearray>, pybind11::object> cl(M(\"pybind11\"), \"bytearray\", \"\");\n" <:+: text ∧
      ¬ c!"class_<pybind11::object" <:+: text := by
  obtain ⟨fs', h, hf⟩ := Ex.ends_after (U := Ex.bytes) (n := 20) (o := Ex.opts 1000) (fs := Ex.fsEmpty)
    (P := fun fs => (fs.files c!"out/pybind11.cpp").any fun text => decide (
      c!"\t\tpybind11::class_<pybind11::bytearray, std::shared_ptr<pybind11::bytearray>, pybind11::object> cl(M(\"pybind11\"), \"bytearray\", \"\");\n" <:+: text ∧
      ¬ c!"class_<pybind11::object" <:+: text)) (by decide +kernel)
  refine ⟨Ex.bytes_wellfounded, by decide, fs', h, ?_⟩
  cases e : fs'.files c!"out/pybind11.cpp" with
  | none => rw [e] at hf; cases hf
  | some text => rw [e] at hf; exact ⟨text, rfl, of_decide_eq_true hf⟩

/-- A run to which `C107_never_bound` applies. -/
example : ∃ fs', Ex.unit.Ends (Ex.opts 1000) Ex.fsEmpty (.done fs') ∧ ∃ srcs, Generated Ex.unit (Ex.opts 1000) Ex.fsEmpty fs' srcs ∧
    ∀ j ∈ registered Ex.unit.E srcs, ¬ ReservedName (stdName Ex.unit.E (Ex.unit.E.cls j).qname) := by
  obtain ⟨fs', h, _⟩ : ∃ fs', Ex.unit.Ends (Ex.opts 1000) Ex.fsEmpty (.done fs') ∧ (fun _ => true) fs' = true :=
    Ex.ends_after (n := 20) (by decide +kernel)
  obtain ⟨srcs, hg, -, hr⟩ := C107_never_bound Ex.unit (Ex.opts 1000) Ex.fsEmpty fs' Ex.fsEmpty_wf (by decide) (Ex.unit_distinct 1000) h
  exact ⟨fs', h, srcs, hg, fun j hj => (hr j hj).1⟩

/-- A reserved name as clang gives it: the two inline namespaces are taken away first. -/
example : ReservedName (stdName Ex.unit.E c!"std::_Vector_base") ∧ PythonHas Ex.unit.E (stdName Ex.unit.E c!"std::__cxx11::basic_string") := by
  refine ⟨(bannedDecl_iff _ _).1 (by decide +kernel), (builtinDecl_iff _ _).1 (by decide +kernel)⟩

end Binder
