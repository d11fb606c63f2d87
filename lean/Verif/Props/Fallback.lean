import Verif.Props.Overload
import Verif.Props.Trampoline
import Verif.Props.VirtualRun
import Verif.Spec.Lookup

/-!
# C103: a function of a callback structure runs the implementation it stands for

If Python does not override a method, the function in the callback structure calls the implementation by its name, and C++ chooses among
all functions of that name in the class, `Spec/Overload.lean`.
-/

namespace Binder

open Cxx Spec

variable (E : Env)

/-- C103, partial. Every function of the callback structure of class `i`, unless the user asked for a custom trampoline, the method is pure
or it takes functions, is declared with the types of the parameters of the method, and ends with a call by name, with all its parameters.
Whatever functions `scope` have that name in the class: this call reaches the method exactly if its parameters tell it apart from each
of the others, and it can pass its arguments exactly if the classes among them that the method takes by value can be copied. Not all
methods of a C++ program are like that, see `C103_ambiguous_false` and `C103_copy_false`. -/
theorem C103_fallback_partial (i : Nat) : ∃ f : Override → OverrideDecl,
    callbackText E i = commentFor E (E.cls i).qname (E.cls i).incl (E.cls i).line ++
      structText (callbackName E i) (classQualifiedName E (E.cls i)) (E.cls i).name ((overrides E i).map f) ∧
    ∀ o ∈ overrides E i, o.method.isInstance = true → customTrampolineFunction E.cfg (memberFunctionName E o) = [] →
      o.method.isPure = false → (¬ ∃ p ∈ o.method.params, IsFunction p.ty.canon) →
      (f o).name = o.method.name ∧ (f o).isConst = o.method.isConst ∧
      (f o).types = o.method.params.map (fun p => stdTy E p.ty) ∧ (∀ p ∈ o.method.params, declared p.ty c!" " = some p.ty) ∧
      (∃ before, (f o).body = before ++ c!"\t\treturn " ++ (E.cls o.cls).name ++ c!"::" ++ o.method.name ++ c!"(" ++
        listText (argNames (f o).types.length) ++ c!");\n") ∧
      let call : Call := ⟨some o.method.isConst, o.method.params.map fun p => variableOf p.ty⟩
      (∀ (conv : Arg → Ty → Prop) (scope : List Func), o.method ∈ scope →
        (Selects conv call scope o.method ↔
          ∀ G ∈ scope, G ≠ o.method → TellsApartPlain o.method G o.method.params.length)) ∧
      ∀ copyable : Nat → Prop, Passes copyable call o.method ↔
        ∀ p ∈ o.method.params, ∀ r, p.ty.canon.unqual = .record r → copyable r := by
  refine ⟨_, callbackText_eq E i, fun o ho hi hc hp hf => ⟨rfl, rfl, rfl, ?_, ?_, ?_⟩⟩
  · intro p hpm
    unfold declared
    split
    · exact absurd (isFunction_unqual _ ‹_›) fun h => hf ⟨p, hpm, h⟩
    · rfl
  · have hl : (overrideDecl E (classQualifiedName E (E.cls i)) o).types.length = o.method.params.length := by simp [overrideDecl]
    rw [hl]
    exact ⟨_, C51_forwards E _ o hc hp⟩
  · have hr : ∀ p ∈ o.method.params, ¬ RvalueRef p.ty := by
      refine bindable_no_rvalue E (F := o.method) ?_
      have h := (overrides_source E ho).2.1
      simp only [overridable, Bool.and_eq_true] at h
      exact h.1.1.1.1.1.2
    have hcall : (⟨some o.method.isConst, o.method.params.map fun p => variableOf p.ty⟩ : Call) =
        ownCall variableOf o.method o.method.params.length := by
      simp [ownCall, hi]
    simp only [hcall]
    refine ⟨fun conv scope hm => selects_plain _ _ (Nat.le_refl _) (by simp) hr conv scope hm, fun copyable => ?_⟩
    have := passes_iff variableOf o.method o.method.params.length (Nat.le_refl _) copyable
    rwa [List.take_length] at this

namespace Ex

/-- `virtual int A::f(int x)`. -/
def virtualInt : Func := virtualMethod 0 c!"A" c!"f" (.basic 0) [⟨c!"x", .basic 0, false⟩] false false false .pub

/-- `virtual int A::f(B x)`, where `B` is class number 1. -/
def virtualObject : Func := virtualMethod 0 c!"A" c!"f" (.basic 0) [⟨c!"x", .record 1, false⟩] false false false .pub

/-- A program with a class `A` that has the given functions, and a class `B`. -/
def twoClasses (Fs : List Func) : Env := hierarchy [exampleClass c!"A" false [] Fs, exampleClass c!"B" false [] []]

end Ex

/-- C103 is false for `struct A { virtual int f(int x); int f(int x, int n = 0); };`, which C++ accepts. The callback structure overrides the
first function with one that ends with `return A::f(a0)`, which reaches no function, because both are equally good. -/
theorem C103_ambiguous_false : ∃ (E : Env) (F G : Func), (E.cls 0).methods = [F, G] ∧ trampoline E 0 = true ∧ overrides E 0 = [⟨0, F, none⟩] ∧
    c!"\t\treturn A::f(a0);\n\t}\n};\n\n" <:+ callbackText E 0 ∧
    ∀ (conv : Arg → Ty → Prop) (H : Func), ¬ Selects conv ⟨some false, [variableOf (.basic 0)]⟩ (E.cls 0).methods H := by
  refine ⟨Ex.twoClasses [Ex.virtualInt, Ex.twoInts], Ex.virtualInt, Ex.twoInts, by rfl, by decide +kernel, by rfl, ?_, ?_⟩
  · decide +kernel
  intro conv H hs
  have e : (⟨some false, [variableOf (.basic 0)]⟩ : Call) = ownCall variableOf Ex.twoInts 1 := rfl
  have e' : (⟨some false, [variableOf (.basic 0)]⟩ : Call) = ownCall variableOf Ex.virtualInt 1 := rfl
  have hm : ((Ex.twoClasses [Ex.virtualInt, Ex.twoInts]).cls 0).methods = [Ex.virtualInt, Ex.twoInts] := rfl
  rw [hm] at hs
  have hr : ∀ p ∈ Ex.twoInts.params, ¬ RvalueRef p.ty := by
    intro p hp ⟨u, hu⟩
    simp [Ex.twoInts, exampleMethod] at hp
    rcases hp with rfl | rfl <;> simp [Ty.canon] at hu
  have hr' : ∀ p ∈ Ex.virtualInt.params, ¬ RvalueRef p.ty := fun p hp => hr p (by
    simp [Ex.virtualInt, virtualMethod] at hp; subst hp; simp [Ex.twoInts, exampleMethod])
  have hne : Ex.virtualInt ≠ Ex.twoInts := fun h => by
    have := congrArg (fun F : Func => F.params.length) h
    simp [Ex.virtualInt, virtualMethod, Ex.twoInts, exampleMethod] at this
  have hH := hs.found
  simp only [List.mem_cons, List.not_mem_nil, or_false] at hH
  rcases hH with rfl | rfl
  · rw [e'] at hs
    rcases (selects_plain Ex.virtualInt 1 (by decide) (by decide) hr' conv _ (by simp)).1 hs Ex.twoInts (by simp) hne.symm with
      h | h | ⟨i, p, hi, hp, h⟩
    · exact h ⟨by decide, .inl (by decide)⟩
    · exact h.2.2 rfl
    · obtain rfl : i = 0 := by omega
      cases hp
      rcases h (.basic 0) rfl with h | ⟨u, hu⟩ | ⟨⟨u, hu, -⟩, -⟩ | ⟨⟨u, hu, -⟩, -⟩
      · exact h rfl
      all_goals simp [Ty.canon] at hu
  · rw [e] at hs
    rcases (selects_plain Ex.twoInts 1 (by decide) (by decide) hr conv _ (by simp)).1 hs Ex.virtualInt (by simp) hne with
      h | h | ⟨i, p, hi, hp, h⟩
    · exact h ⟨by decide, .inl (by decide)⟩
    · exact h.2.2 rfl
    · obtain rfl : i = 0 := by omega
      cases hp
      rcases h (.basic 0) rfl with h | ⟨u, hu⟩ | ⟨⟨u, hu, -⟩, -⟩ | ⟨⟨u, hu, -⟩, -⟩
      · exact h rfl
      all_goals simp [Ty.canon] at hu

/-- C103 is false for methods that take a class by value that can only be moved, like `virtual int A::f(B x)`. The function of the callback
structure passes on its parameter `a0`, which C++ would have to copy. -/
theorem C103_copy_false : ∃ (E : Env) (F : Func), (E.cls 0).methods = [F] ∧ trampoline E 0 = true ∧ overrides E 0 = [⟨0, F, none⟩] ∧
    c!"\t\treturn A::f(a0);\n\t}\n};\n\n" <:+ callbackText E 0 ∧
    ∀ copyable : Nat → Prop, ¬ copyable 1 → ¬ Passes copyable ⟨some false, F.params.map fun p => variableOf p.ty⟩ F := by
  refine ⟨Ex.twoClasses [Ex.virtualObject], Ex.virtualObject, by rfl, by decide +kernel, by rfl, ?_, fun copyable hn hp => hn ?_⟩
  · decide +kernel
  · exact hp 0 (.record 1) 1 (by decide) rfl rfl

/-- A case of `C103_fallback_partial`: `virtual int A::f(B x)` beside `virtual int A::f(int x)`. The structure overrides both, and the
parameters tell them apart. -/
example : (overrides (Ex.twoClasses [Ex.virtualObject, Ex.virtualInt]) 0).map (·.method) = [Ex.virtualObject, Ex.virtualInt] ∧
    Ex.virtualObject.isInstance = true ∧ Ex.virtualObject.isPure = false ∧
    ∀ G ∈ ((Ex.twoClasses [Ex.virtualObject, Ex.virtualInt]).cls 0).methods, G ≠ Ex.virtualObject → TellsApartPlain Ex.virtualObject G 1 := by
  refine ⟨by rfl, rfl, rfl, ?_⟩
  intro G hG hne
  have hm : ((Ex.twoClasses [Ex.virtualObject, Ex.virtualInt]).cls 0).methods = [Ex.virtualObject, Ex.virtualInt] := rfl
  rw [hm] at hG
  simp only [List.mem_cons, List.not_mem_nil, or_false] at hG
  rcases hG with rfl | rfl
  · exact absurd rfl hne
  · refine .inr (.inr ⟨0, .record 1, by omega, rfl, fun q hq => .inl ?_⟩)
    cases hq
    simp [bare, Ty.canon, Ty.unqual]

/-! ### The class name before `::` -/

/-- A class has a type as a member: itself under its own name, or a member class. Left out: typedefs. -/
def HasTypeName (E : Env) (n : Str) (c : Nat) : Prop := (E.cls c).name = n ∨ ∃ j ∈ E.nestedClasses (E.cls c), (E.cls j).name = n

/-- A class declares a function. -/
def HasFunction (E : Env) (n : Str) (c : Nat) : Prop := ∃ m ∈ (E.cls c).methods, m.name = n

theorem inherits_any {E : Env} {ok : Base → Prop} {i j : Nat} (h : Inherits E ok i j) : Inherits E anyBase i j := by
  induction h with
  | refl => exact .refl
  | step hb _ hr _ ih => exact .step hb trivial hr ih

/-- C103, partial. The call at the end of a function of the callback structure of class `i` names the class that has the method
(`C103_fallback_partial`). If no other class in the hierarchy has this name or a member class of this name, then C++ finds that class, and
in it the functions that it declares itself. -/
theorem C103_class_name_partial (i : Nat) (o : Override) (ho : o ∈ overrides E i)
    (hname : ∀ j, Inherits E anyBase i j → HasTypeName E (E.cls o.cls).name j → j = o.cls) :
    Finds E (HasTypeName E (E.cls o.cls).name) i o.cls ∧ Finds E (HasFunction E o.method.name) o.cls o.cls := by
  obtain ⟨hm, -, -, -, hfirst⟩ := C51_source E i o ho
  refine ⟨⟨inherits_any (firstAlong_inherits hfirst), .inl rfl, fun j hj hn => ?_⟩, .refl, ⟨_, hm, rfl⟩, fun j hj _ => hj⟩
  rw [hname j hj hn]
  exact .refl

/-- `namespace x { struct B { virtual int f(); }; } namespace y { struct B { virtual int g(); }; } struct D : x::B, y::B {};` -/
def Ex.sameNames : Env := hierarchy
  [exampleClass c!"D" false [publicBase 1, publicBase 2] [],
   { exampleClass c!"B" false [] [virtualMethod 1 c!"x::B" c!"f" (.basic 0) [] false false false .pub] with qname := c!"x::B" },
   { exampleClass c!"B" false [] [virtualMethod 2 c!"y::B" c!"g" (.basic 0) [] false false false .pub] with qname := c!"y::B" }]

/-- C103 is false for a class with two bases of the same name from different namespaces: the functions of the callback structure end with
`return B::f()` and `return B::g()`, and `B` is ambiguous. -/
theorem C103_class_name_false : ∃ E : Env, trampoline E 0 = true ∧ (overrides E 0).map (fun o => ((E.cls o.cls).qname, o.method.name)) =
      [(c!"x::B", c!"f"), (c!"y::B", c!"g")] ∧ (∀ o ∈ overrides E 0, ∃ before,
        overrideBodyText E c!"D" o = before ++ c!"\t\treturn B::" ++ o.method.name ++ c!"();\n") ∧
    ¬ ∃ k, Finds E (HasTypeName E c!"B") 0 k := by
  refine ⟨Ex.sameNames, by decide +kernel, by rfl, ?_, ?_⟩
  · intro o ho
    have h : ∀ o ∈ overrides Ex.sameNames 0, customTrampolineFunction Ex.sameNames.cfg (memberFunctionName Ex.sameNames o) = [] ∧
        o.method.isPure = false ∧ (Ex.sameNames.cls o.cls).name = c!"B" ∧ o.method.params.length = 0 := by decide +kernel
    obtain ⟨h1, h2, h3, h4⟩ := h o ho
    have := C51_forwards Ex.sameNames c!"D" o h1 h2
    rw [h3, h4] at this
    generalize indent _ _ = before at this
    refine ⟨before, this.trans ?_⟩
    have ha : listText (argNames 0) = [] := rfl
    simp only [ha, List.append_assoc, List.cons_append, List.nil_append]
  · rintro ⟨k, hk, hn, hall⟩
    have s0 : ∀ b, b ∈ (Ex.sameNames.cls 0).bases → ∀ j, b.record = some j → j = 1 ∨ j = 2 := by
      intro b hb j hj
      simp [Ex.sameNames, hierarchy, exampleClass, publicBase] at hb
      rcases hb with rfl | rfl <;> simp_all
    have s1 : ∀ j, Inherits Ex.sameNames anyBase 1 j → j = 1 := by
      intro j h; cases h with
      | refl => rfl
      | step hb => simp [Ex.sameNames, hierarchy, exampleClass] at hb
    have s2 : ∀ j, Inherits Ex.sameNames anyBase 2 j → j = 2 := by
      intro j h; cases h with
      | refl => rfl
      | step hb => simp [Ex.sameNames, hierarchy, exampleClass] at hb
    have i1 : Inherits Ex.sameNames anyBase 0 1 := .step (b := publicBase 1) (by simp [Ex.sameNames, hierarchy, exampleClass]) trivial rfl .refl
    have i2 : Inherits Ex.sameNames anyBase 0 2 := .step (b := publicBase 2) (by simp [Ex.sameNames, hierarchy, exampleClass]) trivial rfl .refl
    have a1 := hall 1 i1 (.inl rfl)
    have a2 := hall 2 i2 (.inl rfl)
    have hk0 : k ≠ 0 := by
      rintro rfl
      rcases hn with hn | ⟨j, hj, -⟩
      · simp [Ex.sameNames, hierarchy, exampleClass] at hn
      · simp [Env.nestedClasses, Ex.sameNames, hierarchy, exampleClass] at hj
    cases hk with
    | refl => exact hk0 rfl
    | step hb _ hr hin =>
      rcases s0 _ hb _ hr with rfl | rfl
      · obtain rfl := s1 _ hin; have := s1 _ a2; omega
      · obtain rfl := s2 _ hin; have := s2 _ a1; omega

/-- A case of `C103_class_name_partial`: in `struct B { virtual int f(); virtual int g(int) const; }; struct D : B { int g(int) const; };` the
names `B` and `D` are found. -/
example : (overrides overrideExample 0).map (fun o => (overrideExample.cls o.cls).name) = [c!"D", c!"B"] ∧
    (∀ j, Inherits overrideExample anyBase 0 j → HasTypeName overrideExample c!"B" j → j = 1) := by
  refine ⟨by decide +kernel, ?_⟩
  intro j hj hn
  match j with
  | 0 => rcases hn with hn | ⟨j, hj, -⟩
         · simp [overrideExample, hierarchy, exampleClass] at hn
         · simp [Env.nestedClasses, overrideExample, hierarchy, exampleClass] at hj
  | 1 => rfl
  | n + 2 =>
    exfalso
    cases hj with
    | step hb _ hr hin =>
      simp [overrideExample, hierarchy, exampleClass] at hb
      subst hb
      cases hr
      cases hin with
      | step hb => simp [overrideExample, hierarchy, exampleClass] at hb

end Binder
