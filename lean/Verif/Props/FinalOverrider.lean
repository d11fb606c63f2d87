import Verif.Spec.FinalOverrider
import Verif.Props.VirtualRun

/-!
# C51: callback structures of classes with several bases
-/

namespace Binder

open Cxx Spec

theorem inherits_rank {E : Env} (hw : E.Wellfounded) {ok : Base → Prop} {i j : Nat} (h : Inherits E ok i j) : j = i ∨ E.baseRank j < E.baseRank i := by
  induction h with
  | refl => exact .inl rfl
  | step hb _ hr _ ih =>
    have := hw.bases _ _ hb _ hr
    rcases ih with rfl | h
    · exact .inr this
    · exact .inr (by omega)

theorem firstAlong_dominates {E : Env} (hw : E.Wellfounded) {ok : Base → Prop} {has : Nat → Prop} {i c : Nat} (h : FirstAlong E ok has i c) :
    BasesOnce E ok i → ∀ k, Inherits E ok i k → has k → Inherits E ok k c → c = k := by
  induction h with
  | here =>
    intro _ k h1 _ h2
    rcases inherits_rank hw h1 with rfl | h1
    · rfl
    · rcases inherits_rank hw h2 with rfl | h2
      · rfl
      · omega
  | @down i j c b hn hb hok hr hf ih =>
    intro ho k h1 hk h2
    cases h1 with
    | refl => exact absurd hk hn
    | @step _ j' _ b' hb' hok' hr' h1 =>
      have hjj : j = j' := by
        refine ho i .refl b hb b' hb' hok hok' j j' hr hr' c (firstAlong_inherits hf) ?_
        clear ih hf
        revert h2
        clear hb' hr' hb hr hn ho hok hok'
        induction h1 with
        | refl => exact id
        | step a1 a2 a3 _ ih => intro h; exact .step a1 a2 a3 (ih hk h)
      subst hjj
      exact ih (fun x hx => ho x (.step hb hok hr hx)) k h1 hk h2

/-- C51, for classes with any number of bases, none of which is a base in two ways. Let a virtual function be declared, once or more often, in class `i` and its bases, let
class `k` have the final overrider, and let all these declarations be ones that can be overridden from Python (not private, not `final`, not skipped, bindable, no
`const` overload). Then the structure for `i` has a function for them, and it stands for the declaration in `k`. -/
theorem C51_final_overrider_partial (E : Env) (hw : E.Wellfounded) (i : Nat) (hone : BasesOnce E notPrivate i) (sig : Str) (k : Nat)
    (hk : FinalOverrider E notPrivate (fun c => ∃ m ∈ (E.cls c).methods, m.isVirtual = true ∧
      declarator m.name (m.params.map fun p => stdTy E p.ty) m.isConst = sig) i k)
    (hall : ∀ c, Inherits E notPrivate i c → ∀ m ∈ (E.cls c).methods, declarator m.name (m.params.map fun p => stdTy E p.ty) m.isConst = sig →
      methodFinal m = false ∧ (m.isVirtual = true → overridable E m = true)) :
    ∃ o ∈ overrides E i, o.cls = k ∧ o.method ∈ (E.cls k).methods ∧ o.method.isVirtual = true ∧
      declarator o.method.name (o.method.params.map fun p => stdTy E p.ty) o.method.isConst = sig := by
  obtain ⟨h1, ⟨m, hm, hv, hs⟩, h3⟩ := hk
  rcases overrides_complete E hw h1 hm ((hall k h1 m hm hs).2 hv) with ⟨o, ho, hkey⟩ | ⟨c, hc, f, hf, hfin, hkey⟩
  · rw [overrideKey_eq, overrideKey_eq, hs] at hkey
    obtain ⟨s1, s2, _, _, s3⟩ := C51_source E i o ho
    have hin := firstAlong_inherits s3
    have hko := h3 o.cls hin ⟨o.method, s1, s2, hkey⟩
    have hck : o.cls = k := firstAlong_dominates hw s3 hone k h1 ⟨m, hm, (hall k h1 m hm hs).2 hv, hs.trans hkey.symm⟩ hko
    exact ⟨o, ho, hck, hck ▸ s1, s2, hkey⟩
  · rw [overrideKey_eq, overrideKey_eq, hs] at hkey
    rw [(hall c hc f hf hkey).1] at hfin
    cases hfin

/-- `struct A { virtual int g(); }; struct C { virtual int f(); }; struct B : C { int f() override; }; struct D : A, B {};` -/
def severalExample : Env := hierarchy
  [exampleClass c!"D" false [publicBase 1, publicBase 2] [],
   exampleClass c!"A" false [] [virtualMethod 1 c!"A" c!"g" (.basic 0) [] false false false .pub],
   exampleClass c!"B" false [publicBase 3] [virtualMethod 2 c!"B" c!"f" (.basic 0) [] false false false .pub],
   exampleClass c!"C" false [] [virtualMethod 3 c!"C" c!"f" (.basic 0) [] false false false .pub]]

theorem severalExample_wellfounded : severalExample.Wellfounded := by
  apply hierarchy_wellfounded
  · simp [exampleClass, exampleRecord]
  · simp [exampleClass, exampleRecord]
  · decide

/-- The bases in the example. -/
theorem severalExample_inherits {i c : Nat} (h : Inherits severalExample notPrivate i c) : c = i ∨ i = 0 ∧ (c = 1 ∨ c = 2 ∨ c = 3) ∨ i = 2 ∧ c = 3 := by
  induction h with
  | refl => exact .inl rfl
  | @step i j c b hb _ hr _ ih =>
    match i with
    | 0 =>
      simp [severalExample, hierarchy, exampleClass, publicBase] at hb
      rcases hb with rfl | rfl <;> cases hr <;> omega
    | 1 => simp [severalExample, hierarchy, exampleClass] at hb
    | 2 =>
      simp [severalExample, hierarchy, exampleClass, publicBase] at hb
      subst hb; cases hr; omega
    | 3 => simp [severalExample, hierarchy, exampleClass] at hb
    | _ + 4 => simp [severalExample, hierarchy, exampleRecord] at hb

/-- A case of `C51_final_overrider_partial`: the structure of `D` forwards `f` to `B::f`. -/
example : trampoline severalExample 0 = true ∧ ∃ o ∈ overrides severalExample 0, o.cls = 2 ∧
    declarator o.method.name (o.method.params.map fun p => stdTy severalExample p.ty) o.method.isConst = c!"f()" := by
  refine ⟨by decide +kernel, ?_⟩
  have hB : Inherits severalExample notPrivate 0 2 :=
    .step (b := publicBase 2) (by simp [severalExample, hierarchy, exampleClass]) (by simp [notPrivate, publicBase]) rfl .refl
  have hC : Inherits severalExample notPrivate 2 3 :=
    .step (b := publicBase 3) (by simp [severalExample, hierarchy, exampleClass]) (by simp [notPrivate, publicBase]) rfl .refl
  have h := C51_final_overrider_partial severalExample severalExample_wellfounded 0 ?_ c!"f()" 2 ⟨hB, ?_, ?_⟩ ?_
  · obtain ⟨o, h1, h2, _, _, h3⟩ := h
    exact ⟨o, h1, h2, h3⟩
  · intro x hx b hb b' hb' _ _ j j' hr hr' c h1 h2
    have hx' := severalExample_inherits hx
    have h1 := severalExample_inherits h1
    have h2 := severalExample_inherits h2
    rcases (by omega : x = 0 ∨ x = 1 ∨ x = 2 ∨ x = 3) with rfl | rfl | rfl | rfl
    · simp [severalExample, hierarchy, exampleClass, publicBase] at hb hb'
      rcases hb with rfl | rfl <;> rcases hb' with rfl | rfl <;> cases hr <;> cases hr' <;> omega
    · simp [severalExample, hierarchy, exampleClass] at hb
    · simp [severalExample, hierarchy, exampleClass, publicBase] at hb hb'
      subst hb; subst hb'; cases hr; cases hr'; rfl
    · simp [severalExample, hierarchy, exampleClass] at hb
  · exact ⟨virtualMethod 2 c!"B" c!"f" (.basic 0) [] false false false .pub, by simp [severalExample, hierarchy, exampleClass, Record.methods], rfl, by decide +kernel⟩
  · rintro c hc ⟨m, hm, _, hs⟩
    have hc' := severalExample_inherits hc
    rcases (by omega : c = 0 ∨ c = 1 ∨ c = 2 ∨ c = 3) with rfl | rfl | rfl | rfl
    · simp [severalExample, hierarchy, exampleClass, Record.methods] at hm
    · simp [severalExample, hierarchy, exampleClass, Record.methods] at hm
      subst hm
      exact absurd hs (by decide +kernel)
    · exact .refl
    · exact hC
  · intro c hc m hm _
    have hc' := severalExample_inherits hc
    have key : ∀ c < 4, ∀ m ∈ (severalExample.cls c).methods, methodFinal m = false ∧ (m.isVirtual = true → overridable severalExample m = true) := by
      decide +kernel
    exact key c (by omega) m hm

/-- `struct A { virtual int f(); }; struct B { virtual int f(); }; struct D : A, B {};` -/
def twoBasesExample : Env := hierarchy
  [exampleClass c!"D" false [publicBase 1, publicBase 2] [],
   exampleClass c!"A" false [] [virtualMethod 1 c!"A" c!"f" (.basic 0) [] false false false .pub],
   exampleClass c!"B" false [] [virtualMethod 2 c!"B" c!"f" (.basic 0) [] false false false .pub]]

/-- C51 fails if two unrelated bases have virtual functions of the same signature: for a `D`, C++ runs `A::f` in calls through an `A`, and `B::f` in calls through a `B`.
The structure of `D` overrides both with one function, which forwards to `A::f`. -/
theorem C51_two_bases_false : ∃ E : Env, E.Wellfounded ∧ BasesOnce E notPrivate 0 ∧ trampoline E 0 = true ∧ ∃ o m, overrides E 0 = [o] ∧ o.cls = 1 ∧
    Inherits E notPrivate 0 1 ∧ Inherits E notPrivate 0 2 ∧ m ∈ (E.cls 2).methods ∧ m.isVirtual = true ∧ SameSignature m o.method ∧
    ¬ Inherits E notPrivate 1 2 ∧ ¬ Inherits E notPrivate 2 1 := by
  have hno : ∀ i, i = 1 ∨ i = 2 → ∀ c, Inherits twoBasesExample notPrivate i c → c = i := by
    rintro i hi c h
    cases h with
    | refl => rfl
    | step hb => rcases hi with rfl | rfl <;> simp [twoBasesExample, hierarchy, exampleClass] at hb
  refine ⟨twoBasesExample, ?_, ?_, by decide +kernel, ⟨1, virtualMethod 1 c!"A" c!"f" (.basic 0) [] false false false .pub, none⟩,
    virtualMethod 2 c!"B" c!"f" (.basic 0) [] false false false .pub, by decide +kernel, rfl,
    .step (b := publicBase 1) (by simp [twoBasesExample, hierarchy, exampleClass]) (by simp [notPrivate, publicBase]) rfl .refl,
    .step (b := publicBase 2) (by simp [twoBasesExample, hierarchy, exampleClass]) (by simp [notPrivate, publicBase]) rfl .refl,
    by simp [twoBasesExample, hierarchy, exampleClass, Record.methods], rfl, ⟨rfl, rfl, rfl⟩,
    fun h => absurd (hno 1 (.inl rfl) 2 h) (by decide), fun h => absurd (hno 2 (.inr rfl) 1 h) (by decide)⟩
  · apply hierarchy_wellfounded
    · simp [exampleClass, exampleRecord]
    · simp [exampleClass, exampleRecord]
    · decide
  · intro x hx b hb b' hb' _ _ j j' hr hr' c h1 h2
    cases hx with
    | refl =>
      simp [twoBasesExample, hierarchy, exampleClass, publicBase] at hb hb'
      rcases hb with rfl | rfl <;> rcases hb' with rfl | rfl <;> cases hr <;> cases hr'
      · rfl
      · exact (hno 1 (.inl rfl) c h1).symm.trans (hno 2 (.inr rfl) c h2)
      · exact (hno 2 (.inr rfl) c h1).symm.trans (hno 1 (.inl rfl) c h2)
      · rfl
    | @step _ y _ d hd _ hrd hx =>
      simp [twoBasesExample, hierarchy, exampleClass, publicBase] at hd
      rcases hd with rfl | rfl <;> cases hrd
      · have := hno 1 (.inl rfl) x hx
        subst this
        simp [twoBasesExample, hierarchy, exampleClass] at hb
      · have := hno 2 (.inr rfl) x hx
        subst this
        simp [twoBasesExample, hierarchy, exampleClass] at hb

end Binder
