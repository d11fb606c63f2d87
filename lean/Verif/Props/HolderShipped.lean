import Verif.Model.StlBinders
import Verif.Props.Holder
import Verif.Props.StlBinders

/-!
# C111 for the classes of the shipped binders
-/

namespace Binder

open Cxx Spec

variable (E : Env)

/-- The code generated for class `i` is a call of the binder `b` in `source/stl_binders.hpp`, which makes a Python class with the type and the holder of
`d`. -/
def MadeByShipped (i : Nat) (b : Str) (d : ClassDef) : Prop :=
  shippedType E b (E.cls i) = some d.name ∧ d.holder = shippedHolder d.name ∧ some d.pyName = shippedName E b (E.cls i) ∧
  ∃ before after, (classOutput E i).code = before ++ c!"\t" ++ b ++ stdName E (classTemplateText (E.cls i)) ++ c!"(" ++ d.scope ++ c!", \"" ++ after

/-- C111 where it holds: the objects of a class made by a shipped binder can be given to a parameter that is a smart pointer of the configured type
exactly if that is `std::shared_ptr`. A class `j` that is derived from it can be imported exactly if the configured holder type is not
`std::unique_ptr`, or the destructor of `j` is not public. -/
theorem C111_shipped_partial (hw : E.Wellfounded) (i : Nat) {b : Str} (hb : E.cfg.binders (stdName E (E.cls i).qname) = some b)
    (hn : builtinDecl E (E.cls i).qname = false) {n t : Str} (hs : shippedName E b (E.cls i) = some n) (ht : shippedType E b (E.cls i) = some t) :
    ∃ d, MadeByShipped E i b d ∧ (d.HeldBy E.cfg.holderType ↔ E.cfg.holderType = c!"std::shared_ptr") ∧
      ∀ j, HasBlock E j → ∃ e, MadeBy E j e ∧ (e.Accepts d ↔ (E.cfg.holderType ≠ c!"std::unique_ptr" ∨ ¬ Ownable E j)) := by
  have hheld : ∀ s : Str, (⟨t, shippedHolder t, none, [], moduleVariable (nsOf E (E.cls i).qname (E.cls i).name), n, [], []⟩ : ClassDef).HeldBy s ↔
      s = c!"std::shared_ptr" := by
    intro s
    show c!"std::shared_ptr<" ++ t ++ c!">" = s ++ c!"<" ++ t ++ c!">" ↔ _
    constructor
    · intro h
      have : c!"std::shared_ptr" ++ (c!"<" ++ t ++ c!">") = s ++ (c!"<" ++ t ++ c!">") := by simpa using h
      exact (List.append_cancel_right this).symm
    · rintro rfl
      simp
  refine ⟨_, ⟨ht, rfl, hs.symm, ?_⟩, hheld _, fun j hj => ⟨classDef E j, classDef_made hw hj, ?_⟩⟩
  · rw [C82_statement hb hn]
    cases ha : ((E.cls i).targs.getD []).map (binderArgument E) with
    | nil => rw [shippedName, ha] at hs; cases hs
    | cons a as => exact ⟨c!"\t" ++ commentFor E (E.cls i).qname (E.cls i).incl (E.cls i).line, _, by simp [moduleVariable]; rfl⟩
  · unfold ClassDef.Accepts ClassDef.DefaultHolder
    rw [classDef_heldBy hw, hheld]
    simp
    by_cases h : E.cfg.holderType = c!"std::unique_ptr" <;> simp [h]

namespace Ex

def shippedTyName : Ty → Str
  | .record i => [c!"std::vector<int, std::allocator<int> >", c!"my::ptr<std::vector<int> >"].getD i []
  | .lref t => shippedTyName t ++ c!" &"
  | t => exampleTyName t

/-- `void f(my::ptr<std::vector<int>> p);`, with `+custom_shared holder` and `+binder std::vector binder::vector_binder`. -/
def shippedHeld (holder : Str) : TransUnit :=
  { env := withClasses { exampleEnv with
        tyName := shippedTyName, simplify := simplifyStd, argRank := fun i => i
        cfg := { namespacesToBind := [c!""], holderType := holder, binders := fun n => if n = c!"std::vector" then some c!"binder::vector_binder" else none } }
      [stdClass c!"vector" [c!"int", c!"std::allocator<int>"],
       { exampleRecord with name := c!"ptr", qname := c!"my::ptr", targs := some [⟨c!"std::vector<int>", .type (.record 0)⟩] }]
    visits := [.cls 0, .fn { exampleMethod c!"f" false (.basic 0) [⟨c!"p", .record 1, false⟩] with qname := c!"f", method := none }]
    inSystem := fun _ => false, depth := 20 }

end Ex

theorem Ex.shippedHeld_wellfounded {h : Str} : (Ex.shippedHeld h).env.Wellfounded := wellfounded_of_ranked (E := (Ex.shippedHeld h).env) rfl

/-- The class `std::vector<int>` of `Ex.shippedHeld` meets the hypotheses of `C111_shipped_partial`. -/
theorem Ex.shippedHeld_meets : let E := (Ex.shippedHeld c!"my::ptr").env
    E.cfg.binders (stdName E (E.cls 0).qname) = some c!"binder::vector_binder" ∧ builtinDecl E (E.cls 0).qname = false ∧
    shippedName E c!"binder::vector_binder" (E.cls 0) = some c!"vector_int" ∧
    shippedType E c!"binder::vector_binder" (E.cls 0) = some c!"std::vector<int,std::allocator<int>>" :=
  ⟨by decide +kernel, by decide +kernel, by decide +kernel, by decide +kernel⟩

/-- C111 is false for the shipped binders if another holder is configured: the run binds the vector and a function that takes a smart pointer of the
configured type to it, and the holder of the vector is still a `std::shared_ptr`, which pybind11 copies as if it were the other smart pointer. -/
theorem C111_shipped_false : (Ex.shippedHeld c!"my::ptr").env.cfg.holderType = c!"my::ptr" ∧ PointsTo (Ex.shippedHeld c!"my::ptr").env c!"my::ptr" 0 (.record 1) ∧
    (∃ d, MadeByShipped (Ex.shippedHeld c!"my::ptr").env 0 c!"binder::vector_binder" d ∧ d.pyName = c!"vector_int" ∧ d.HeldBy c!"std::shared_ptr" ∧ ¬ d.HeldBy c!"my::ptr") ∧
    ∃ fs', (Ex.shippedHeld c!"my::ptr").Ends (Ex.opts 1000) Ex.fsEmpty (.done fs') ∧ ∃ vector f, fs'.files c!"out/std/a.cpp" = some vector ∧ fs'.files c!"out/a.cpp" = some f ∧
      c!"\tbinder::vector_binder<int,std::allocator<int>>(M(\"std\"), \"int\", " <:+: vector ∧
      c!"\tM(\"\").def(\"f\", (int (*)(my::ptr<std::vector<int> >)) &f, " <:+: f := by
  obtain ⟨h1, h2, h3, h4⟩ := Ex.shippedHeld_meets
  obtain ⟨d, hd, hh, -⟩ := C111_shipped_partial (Ex.shippedHeld c!"my::ptr").env Ex.shippedHeld_wellfounded 0 h1 h2 h3 h4
  obtain ⟨fs', h, hf⟩ := Ex.ends_after (U := Ex.shippedHeld c!"my::ptr") (n := 20) (o := Ex.opts 1000) (fs := Ex.fsEmpty)
    (P := fun fs => ((fs.files c!"out/std/a.cpp").any fun text => decide (
        c!"\tbinder::vector_binder<int,std::allocator<int>>(M(\"std\"), \"int\", " <:+: text)) &&
      (fs.files c!"out/a.cpp").any fun text => decide (c!"\tM(\"\").def(\"f\", (int (*)(my::ptr<std::vector<int> >)) &f, " <:+: text)) (by decide +kernel)
  refine ⟨rfl, ⟨rfl, _, _, rfl, .inl rfl⟩, ⟨d, hd, ?_, ?_, fun hx => absurd (hh.1 hx) (by decide)⟩, fs', h, ?_⟩
  · exact Option.some.inj (hd.2.2.1.trans h3)
  · show d.holder = _
    rw [hd.2.1]
    simp [shippedHolder]
  · cases e : fs'.files c!"out/std/a.cpp" with
    | none => rw [e] at hf; cases hf
    | some v =>
      cases e2 : fs'.files c!"out/a.cpp" with
      | none => rw [e, e2] at hf; simp at hf
      | some f =>
        rw [e, e2] at hf
        simp only [Option.any_some, Bool.and_eq_true, decide_eq_true_eq] at hf
        exact ⟨v, f, rfl, rfl, hf.1, hf.2⟩

/-- With `std::shared_ptr` configured, the vector is held as functions expect. -/
example : let E := (Ex.shippedHeld c!"std::shared_ptr").env
    E.Wellfounded ∧ E.cfg.binders (stdName E (E.cls 0).qname) = some c!"binder::vector_binder" ∧ builtinDecl E (E.cls 0).qname = false ∧
    shippedName E c!"binder::vector_binder" (E.cls 0) = some c!"vector_int" ∧
    shippedType E c!"binder::vector_binder" (E.cls 0) = some c!"std::vector<int,std::allocator<int>>" ∧ HasBlock E 1 ∧ Ownable E 1 :=
  ⟨Ex.shippedHeld_wellfounded, by decide +kernel, by decide +kernel, by decide +kernel, by decide +kernel, ⟨rfl, by decide +kernel, by decide +kernel⟩, .inr (.inl rfl)⟩

end Binder
