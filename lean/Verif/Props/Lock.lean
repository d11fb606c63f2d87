import Verif.Spec.Lock
import Verif.Props.VirtualRun
import Verif.Props.Function
import Verif.Props.Constructor

/-!
# C114: the lock of the Python interpreter
-/

namespace Binder

open Cxx Spec

variable (E : Env)

theorem indent_takesLock (rest : Str) :
    TakesLock (indent ("\npybind11::gil_scoped_acquire gil;\n".toList ++ rest) c!"\t\t") := by
  have h1 : "\npybind11::gil_scoped_acquire gil;\n".toList ++ rest =
      [] ++ '\n' :: ("pybind11::gil_scoped_acquire gil;".toList ++ '\n' :: rest) := by
    rw [show "\npybind11::gil_scoped_acquire gil;\n".toList = '\n' :: ("pybind11::gil_scoped_acquire gil;".toList ++ c!"\n") from by decide +kernel]
    simp
  rw [indent_eq_terminated, h1, split, splitGo_terminated_aux _ _ _ _ (by simp), splitGo_terminated_aux _ _ _ _ (by decide +kernel)]
  simp only [List.map_cons, List.append_nil, List.nil_append, if_true, terminated]
  rw [if_neg (by decide +kernel)]
  refine ⟨terminated '\n' (List.map (fun l => if l = [] then [] else ['\t', '\t'] ++ l) (splitGo ['\n'] rest [] [])), ?_⟩
  rw [show "\n\t\tpybind11::gil_scoped_acquire gil;\n".toList = '\n' :: (c!"\t\t" ++ "pybind11::gil_scoped_acquire gil;".toList ++ c!"\n") from by decide +kernel]
  simp only [List.cons_append, List.append_assoc, List.nil_append]

theorem dispatch_takesLock (d : Dispatch) (rest : Str) : TakesLock (indent d.text c!"\t\t" ++ rest) := by
  have := indent_takesLock (d.text.drop "\npybind11::gil_scoped_acquire gil;\n".toList.length)
  have h : "\npybind11::gil_scoped_acquire gil;\n".toList ++ d.text.drop "\npybind11::gil_scoped_acquire gil;\n".toList.length = d.text := by
    unfold Dispatch.text
    simp only [List.append_assoc, List.drop_left]
  rw [h] at this
  exact this.trans (List.prefix_append _ _)

theorem cxx_not_python {a : Act} (h : (a.isCxx || a.isVirtual) = true) (hp : a.isPython = true) : False := by
  cases a <;> simp [Act.isCxx, Act.isVirtual, Act.isPython] at h hp

theorem no_virtual {guards : Option Str → Prop} {a : Act} (h : (a.isCxx || a.isVirtual) = true)
    (hp : ThreadPossible guards (fun _ => False) a) : a.isCxx = true := by
  cases a with
  | cxx => rfl
  | python => simp [Act.isCxx, Act.isVirtual] at h
  | call => simp [Act.isCxx, Act.isVirtual] at h
  | virtual => cases hp; contradiction

/-- Python code only runs with the lock, if all bodies take it. -/
theorem python_holds {guards : Option Str → Prop} {bodies : Str → Prop} (hb : ∀ b, bodies b → TakesLock b) {l l' : Bool} {t a : Act}
    (h : Occurs l t l' a) (hp : ThreadPossible guards bodies t) (hl : t.isPython = true → l = true) (ha : a.isPython = true) : l' = true := by
  induction h with
  | self => exact hl ha
  | python hm _ ih =>
    cases hp with
    | python h1 h2 => exact ih (h2 _ hm) (fun _ => hl rfl) ha
  | cxx hm _ ih =>
    cases hp with
    | cxx h1 h2 =>
      exact ih (h2 _ hm) (fun hx => (cxx_not_python (h1 _ hm) hx).elim) ha
  | call _ ih =>
    cases hp with
    | call _ h1 h2 =>
      exact ih h2 (fun hx => (cxx_not_python h1 hx).elim) ha
  | virtual _ ih =>
    cases hp with
    | virtual h1 h2 h3 => exact ih h3 (fun _ => by simp [hb _ h1]) ha

/-- C++ code that reaches no callback structure runs like the call it belongs to. -/
theorem cxx_keeps {guards : Option Str → Prop} {l l' : Bool} {t a : Act} (h : Occurs l t l' a)
    (hp : ThreadPossible guards (fun _ => False) t) (ht : t.isCxx = true) : l' = l := by
  induction h with
  | self => rfl
  | python => cases ht
  | cxx hm _ ih =>
    cases hp with
    | cxx h1 h2 => exact ih (h2 _ hm) (no_virtual (h1 _ hm) (h2 _ hm))
  | call => cases ht
  | virtual => cases ht

/-- C114. Python code runs with the lock only: the generated code has the callback structures it has (`f`), and whatever a thread does with
them and with bound functions, all Python code in it runs while the thread holds the lock. The thread begins with Python code and holds the
lock, or with C++ code, and may hold it. Call guards may be any. (Custom trampolines are code of the user.) -/
theorem C114_python (hc : ∀ s, E.cfg.customTrampolineFunctions s = none) : ∃ f : Nat → Override → OverrideDecl,
    (∀ i, callbackText E i = commentFor E (E.cls i).qname (E.cls i).incl (E.cls i).line ++
      structText (callbackName E i) (classQualifiedName E (E.cls i)) (E.cls i).name ((overrides E i).map (f i))) ∧
    ∀ guards t, ThreadPossible guards (fun b => ∃ i, ∃ o ∈ overrides E i, b = (f i o).body) t →
      ∀ l l' a, (t.isPython = true → l = true) → Occurs l t l' a → a.isPython = true → l' = true := by
  refine ⟨fun i => overrideDecl E (classQualifiedName E (E.cls i)), fun i => callbackText_eq E i, ?_⟩
  intro guards t ht l l' a hl h ha
  refine python_holds ?_ h ht hl ha
  rintro b ⟨i, o, _, rfl⟩
  rw [overrideDecl_body E _ o (by rw [customTrampolineFunction, hc]; rfl), List.append_assoc]
  exact dispatch_takesLock _ _

/-- C114, partial. With `+default_call_guard pybind11::gil_scoped_release`, the C++ code that a bound function runs does not hold the lock,
unless it comes to a function of a callback structure, see `C114_virtual_false`. Missing as well: constructors, see
`C114_constructor_false`. -/
theorem C114_released_partial (hg : E.cfg.defaultCallGuard = c!"pybind11::gil_scoped_release") (module : Str) (F : Func) (parent : Option Nat)
    (lam : Bool) : ∃ (comment : Str) (defs : List Def), bindFunctionText E module F parent lam =
        comment ++ (defs.map fun x => module ++ x.text ++ c!"\n").flatten ∧ defs ≠ [] ∧
      ∀ x ∈ defs, ∀ guards t, ThreadPossible guards (fun _ => False) t → t.isCxx = true →
        ∀ l l' a, Occurs l (.call x.guard t) l' a → a.isCxx = true → l' = false := by
  obtain ⟨comment, defs, h1, h2, h3⟩ := C43_policy E module F parent lam
  refine ⟨comment, defs, h1, h2, fun x hx guards t ht hc l l' a h ha => ?_⟩
  have hx := ((h3 x hx).2 c!"pybind11::gil_scoped_release").2 ⟨hg.symm, by decide⟩
  cases h with
  | self => cases ha
  | call h =>
    rw [cxx_keeps h ht hc, hx]
    simp [underGuard]

/-- C114. Without the option the functions run with the lock, like the Python code that calls them. -/
theorem C114_kept (hg : E.cfg.defaultCallGuard = []) (module : Str) (F : Func) (parent : Option Nat) (lam : Bool) :
    ∃ (comment : Str) (defs : List Def), bindFunctionText E module F parent lam =
        comment ++ (defs.map fun x => module ++ x.text ++ c!"\n").flatten ∧ defs ≠ [] ∧
      ∀ x ∈ defs, ∀ guards t, ThreadPossible guards (fun _ => False) t → t.isCxx = true →
        ∀ l' a, Occurs true (.call x.guard t) l' a → l' = true := by
  obtain ⟨comment, defs, h1, h2, h3⟩ := C43_policy E module F parent lam
  refine ⟨comment, defs, h1, h2, fun x hx guards t ht hc l' a h => ?_⟩
  have hn : x.guard = none := by
    cases h : x.guard with
    | none => rfl
    | some g => exact absurd (((h3 x hx).2 g).1 h) (by rintro ⟨rfl, h'⟩; exact h' hg)
  cases h with
  | self => rfl
  | call h => rw [cxx_keeps h ht hc, hn]; decide

/-- `struct A { virtual void f(); explicit A(int x, int y = 0); };`, with `+default_call_guard pybind11::gil_scoped_release`. -/
def Ex.guarded : Env :=
  let H := hierarchy [{ exampleClass c!"A" false [] [virtualMethod 0 c!"A" c!"f" (.basic 0) [] false false false .pub, twoArguments] with
    needsImplicitDefaultConstructor := false }]
  { H with cfg := { H.cfg with defaultCallGuard := c!"pybind11::gil_scoped_release" } }

/-- Python calls `f`, which Python overrides with a method that calls another function. -/
example : ∃ body, (∃ o ∈ overrides Ex.guarded 0, body = (overrideDecl Ex.guarded (classQualifiedName Ex.guarded (Ex.guarded.cls 0)) o).body) ∧
    ThreadPossible (fun g => g = some Ex.guarded.cfg.defaultCallGuard) (fun b => b = body)
      (.python [.call (some c!"pybind11::gil_scoped_release") (.virtual body (.python [.call (some c!"pybind11::gil_scoped_release") (.cxx [])]))]) ∧
    Occurs true (.python [.call (some c!"pybind11::gil_scoped_release")
      (.virtual body (.python [.call (some c!"pybind11::gil_scoped_release") (.cxx [])]))]) false (.cxx []) := by
  refine ⟨_, ⟨⟨0, virtualMethod 0 c!"A" c!"f" (.basic 0) [] false false false .pub, none⟩, by decide +kernel, rfl⟩, ?_, ?_⟩
  · refine .python (by simp [Act.isCall]) (fun a ha => ?_)
    obtain rfl := List.mem_singleton.1 ha
    refine .call rfl rfl (.virtual rfl rfl (.python (by simp [Act.isCall]) (fun a ha => ?_)))
    obtain rfl := List.mem_singleton.1 ha
    exact .call rfl rfl (.cxx (by simp) (by simp))
  · exact .python List.mem_cons_self (.call (.virtual (.python List.mem_cons_self (.call .self))))

/-- C114 fails for virtual functions: Python calls `f` of an object of a Python class that does not override `f`. The function of the
callback structure takes the lock back, so that the C++ code of `f` runs with it. -/
theorem C114_virtual_false : ∃ E : Env, E.cfg.defaultCallGuard = c!"pybind11::gil_scoped_release" ∧ trampoline E 0 = true ∧
    ∃ o ∈ overrides E 0, ∃ body, body <:+: callbackText E 0 ∧ c!"\t\treturn A::f();\n" <:+ body ∧
      Occurs true (.call (some E.cfg.defaultCallGuard) (.virtual body (.cxx []))) true (.cxx []) := by
  refine ⟨Ex.guarded, rfl, by decide +kernel, ⟨0, virtualMethod 0 c!"A" c!"f" (.basic 0) [] false false false .pub, none⟩, by decide +kernel,
    overrideBodyText Ex.guarded c!"A" ⟨0, virtualMethod 0 c!"A" c!"f" (.basic 0) [] false false false .pub, none⟩, by decide +kernel,
    by decide +kernel, ?_⟩
  refine .call (.virtual ?_)
  have : decide (TakesLock (overrideBodyText Ex.guarded c!"A" ⟨0, virtualMethod 0 c!"A" c!"f" (.basic 0) [] false false false .pub, none⟩)) = true := by
    decide +kernel
  rw [this, Bool.or_true]
  exact .self

/-- C114 fails for constructors: they are bound without the call guard. -/
theorem C114_constructor_false : ∃ E : Env, E.cfg.defaultCallGuard = c!"pybind11::gil_scoped_release" ∧
    ∃ t, Item.ctor t ∈ ctorItems E 0 ∧ itemText E 0 (.ctor t) ≠ [] ∧ ¬ c!"call_guard" <:+: itemText E 0 (.ctor t) := by
  refine ⟨Ex.guarded, rfl, twoArguments, ?_, by decide +kernel, by decide +kernel⟩
  exact (C48_constructors_partial _ _ _).2 ⟨.inl rfl, rfl, .inr (.inl ⟨twoArguments, by decide +kernel, rfl, by simp [Ex.guarded, hierarchy, exampleClass], rfl, rfl,
      by decide +kernel, rfl⟩)⟩

end Binder
