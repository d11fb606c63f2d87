import Verif.Spec.CustomTrampoline
import Verif.Props.Trampoline
import Verif.Props.Config

/-!
# C113: custom trampolines
-/

namespace Binder

open Cxx Spec

variable (E : Env)

theorem namespaceOfNames_nameIn {scope name q : Str} (h : NameIn scope name q) : namespaceOfNames q name = scope := by
  rcases h with ⟨rfl, rfl⟩ | ⟨hs, rfl⟩
  · simp [namespaceOfNames]
  · have hl : 0 < scope.length := List.length_pos_iff.2 hs
    unfold namespaceOfNames
    have h1 : ((scope ++ c!"::" ++ name).length : Int) - (name.length : Int) = scope.length + 2 := by simp; omega
    simp only [h1]
    have h3 : (scope.length : Int) + 2 > 1 := by omega
    simp only [if_pos h3]
    rw [if_neg (by omega)]
    have h2 : ((scope.length : Int) + 2 - 2).toNat = scope.length := by omega
    rw [h2, List.append_assoc, List.take_left]

theorem memberFunctionName_eq {o : Override} {scope : Str} (h : NameIn scope (E.cls o.cls).name (stdName E (E.cls o.cls).qname)) :
    memberFunctionName E o = stdName E (E.cls o.cls).qname ++ c!"::" ++ o.method.name := by
  have hn := namespaceOfNames_nameIn h
  simp only [memberFunctionName, nsOf, hn]
  rcases h with ⟨rfl, h⟩ | ⟨hs, h⟩
  · simp [h]
  · rw [if_pos (List.length_pos_iff.2 hs), h]

theorem argNames_text_pos (k : Nat) : (listText (argNames k)).length > 0 ↔ argNames k ≠ [] := by
  cases k with
  | zero => simp [argNames, listText, List.intercalate]
  | succ k =>
    have : argNames (k + 1) = (argNames (k + 1)).head (by simp [argNames]) :: (argNames (k + 1)).tail := (List.cons_head_tail _).symm
    rw [this, listText_cons]
    simp [argNames]

/-- C113, partial. The configuration names a function for a virtual function, by the qualified name of the class that declares it (`NameIn`:
with its namespace, without template arguments) and its own name. Then every callback structure which overrides that virtual function returns what the
named function returns for this object, the class that is registered, the name of the virtual function and all arguments, in order. In the callback structure of the class
that declares the function, the type of the object is given as that structure. Missing: the structures of derived classes, which
give the type of another structure, see `C113_inherited_false`. -/
theorem C113_custom_partial (i : Nat) : ∃ f : Override → OverrideDecl,
    callbackText E i = commentFor E (E.cls i).qname (E.cls i).incl (E.cls i).line ++
      structText (callbackName E i) (classQualifiedName E (E.cls i)) (E.cls i).name ((overrides E i).map f) ∧
    ∀ o ∈ overrides E i, ∀ scope, NameIn scope (E.cls o.cls).name (stdName E (E.cls o.cls).qname) →
      ∀ g, g ≠ [] → E.cfg.customTrampolineFunctions (stdName E (E.cls o.cls).qname ++ c!"::" ++ o.method.name) = some g →
      (f o).name = o.method.name ∧ ∃ object, (o.cls = i → object = callbackName E i) ∧
        (f o).body = CustomCall.text ⟨g, (E.cls o.cls).name, object, classQualifiedName E (E.cls i), o.method.name,
          argNames o.method.params.length⟩ := by
  refine ⟨_, callbackText_eq E i, fun o _ scope hn g hg hr => ⟨rfl, callbackName E o.cls, fun h => by rw [h], ?_⟩⟩
  have hc : customTrampolineFunction E.cfg (memberFunctionName E o) = g := by
    rw [memberFunctionName_eq E hn, customTrampolineFunction, hr]; rfl
  simp only [overrideDecl, overrideBodyText, hc, if_neg hg, overloadArguments_snd, CustomCall.text]
  simp only [List.cons_append, List.nil_append, listText_cons]
  simp only [argNames_text_pos]
  cases h : argNames o.method.params.length with
  | nil => simp [listText, List.intercalate]
  | cons a as => simp [listText_cons]

/-- C113. A virtual function for which the configuration names none looks for an override in Python, as in C68. -/
theorem C113_others (i : Nat) : ∃ f : Override → OverrideDecl,
    callbackText E i = commentFor E (E.cls i).qname (E.cls i).incl (E.cls i).line ++
      structText (callbackName E i) (classQualifiedName E (E.cls i)) (E.cls i).name ((overrides E i).map f) ∧
    ∀ o ∈ overrides E i, ∀ scope, NameIn scope (E.cls o.cls).name (stdName E (E.cls o.cls).qname) →
      E.cfg.customTrampolineFunctions (stdName E (E.cls o.cls).qname ++ c!"::" ++ o.method.name) = none →
      indent (Dispatch.text ⟨classQualifiedName E (E.cls i), pythonFunctionName o.method, argNames o.method.params.length, (f o).ret⟩) c!"\t\t" <+:
        (f o).body := by
  refine ⟨_, callbackText_eq E i, fun o ho scope hn hr => ?_⟩
  have hc : customTrampolineFunction E.cfg (memberFunctionName E o) = [] := by
    rw [memberFunctionName_eq E hn, customTrampolineFunction, hr]; rfl
  rw [← overrideBody_eq]
  simp only [overrideDecl, overrideBodyText, hc, if_true, overloadArguments_snd]
  exact List.prefix_append _ _

/-- C113, partial. The function is the one of the last line of the configuration file for that virtual function. Missing: as in
`C113_custom_partial`. -/
theorem C113_file_partial (c : Config) (content : Str) (h : readConfig c content = .ok E.cfg) (i : Nat) : ∃ f : Override → OverrideDecl,
    callbackText E i = commentFor E (E.cls i).qname (E.cls i).incl (E.cls i).line ++
      structText (callbackName E i) (classQualifiedName E (E.cls i)) (E.cls i).name ((overrides E i).map f) ∧
    ∀ o ∈ overrides E i, ∀ scope, NameIn scope (E.cls o.cls).name (stdName E (E.cls o.cls).qname) →
      ∀ g, g ≠ [] → lastFor c!"trampoline_member_function_binder" (stdName E (E.cls o.cls).qname ++ c!"::" ++ o.method.name)
          (getlines content) = some g →
      ∃ object, (o.cls = i → object = callbackName E i) ∧
        (f o).body = CustomCall.text ⟨g, (E.cls o.cls).name, object, classQualifiedName E (E.cls i), o.method.name,
          argNames o.method.params.length⟩ := by
  obtain ⟨f, hf, hb⟩ := C113_custom_partial E i
  refine ⟨f, hf, fun o ho scope hn g hg hl => (hb o ho scope hn g hg ?_).2⟩
  rw [(C05_maps c E.cfg content h _).2.2.2.2.1, hl]
  rfl

/-- `namespace n { struct A { virtual void f(int); void g(); }; }`, with a custom trampoline for `n::A::f`. -/
def Ex.custom : Env :=
  let H := hierarchy [{ exampleClass c!"A" false [] [virtualMethod 0 c!"n::A" c!"f" (.basic 0) [⟨c!"x", .basic 0, false⟩] false false false .pub,
    virtualMethod 0 c!"n::A" c!"g" (.basic 0) [] false false false .pub] with qname := c!"n::A" }]
  { H with cfg := { H.cfg with customTrampolineFunctions := fun s => if s = c!"n::A::f" then some c!"myF" else none } }

example : ∃ o ∈ overrides Ex.custom 0, o.cls = 0 ∧ o.method.name = c!"f" ∧
    NameIn c!"n" (Ex.custom.cls 0).name (stdName Ex.custom (Ex.custom.cls 0).qname) ∧
    Ex.custom.cfg.customTrampolineFunctions (stdName Ex.custom (Ex.custom.cls 0).qname ++ c!"::" ++ o.method.name) = some c!"myF" ∧
    (overrideDecl Ex.custom (classQualifiedName Ex.custom (Ex.custom.cls 0)) o).body =
      c!"\n\t\treturn myF<A,PyCallBack_n_A>(this, \"n::A\", \"f\", a0);\n" := by
  refine ⟨⟨0, virtualMethod 0 c!"n::A" c!"f" (.basic 0) [⟨c!"x", .basic 0, false⟩] false false false .pub, none⟩,
    by decide +kernel, rfl, rfl, .inr ⟨by decide, by decide +kernel⟩, by decide +kernel, by decide +kernel⟩

/-- `struct B { virtual void f(); }; struct D : B {};`, with a custom trampoline for `B::f`. -/
def Ex.customBase : Env :=
  let H := hierarchy [exampleClass c!"D" false [publicBase 1] [],
    exampleClass c!"B" false [] [virtualMethod 1 c!"B" c!"f" (.basic 0) [] false false false .pub]]
  { H with cfg := { H.cfg with customTrampolineFunctions := fun s => if s = c!"B::f" then some c!"myF" else none } }

/-- C113 fails for derived classes: in the callback structure of `D` the custom trampoline of `B::f` is told that the object is the callback
structure of `B`. The object is no such structure, so that the code does not compile. -/
theorem C113_inherited_false : ∃ E : Env, trampoline E 0 = true ∧
    (∃ before after, callbackText E 0 = before ++ c!"struct PyCallBack_D : public D {" ++ after) ∧
    c!"\n\t\treturn myF<B,PyCallBack_B>(this, \"D\", \"f\");\n" <:+: callbackText E 0 ∧
    ∃ o ∈ overrides E 0, E.cfg.customTrampolineFunctions (stdName E (E.cls o.cls).qname ++ c!"::" ++ o.method.name) = some c!"myF" := by
  refine ⟨Ex.customBase, by decide +kernel, ?_, by decide +kernel, ?_⟩
  · have h : c!"struct PyCallBack_D : public D {" <:+: callbackText Ex.customBase 0 := by decide +kernel
    obtain ⟨a, b, h⟩ := h
    exact ⟨a, b, h.symm⟩
  · refine ⟨⟨1, virtualMethod 1 c!"B" c!"f" (.basic 0) [] false false false .pub, none⟩, ?_⟩
    decide +kernel

end Binder
