import Verif.Props.RunClass
import Verif.Spec.Holder

/-!
# C111: the holders fit together
-/

namespace Binder

open Cxx Spec

variable (E : Env)

/-- Python objects of the class may own their C++ objects: the destructor is public, or the class inherits from
`std::enable_shared_from_this`. -/
def Ownable (i : Nat) : Prop := FromShared E i ∨ (E.cls i).dtorAccess = none ∨ (E.cls i).dtorAccess = some .pub

/-- Class `i` gets a block of its own: it has a name, and neither pybind11 nor a binder of the user takes care of it. -/
structure HasBlock (i : Nat) : Prop where
  named : (E.cls i).isAnonymous = false
  notBuiltin : builtinDecl E (E.cls i).qname = false
  noBinder : E.cfg.binders (stdName E (E.cls i).qname) = none

/-- `d` is the `class_` statement in the code generated for class `i`, and names the given bases. -/
def MadeBy (i : Nat) (d : ClassDef) : Prop :=
  d.name = classQualifiedName E (E.cls i) ∧ (∀ j, ListedBase E i j → classQualifiedName E (E.cls j) ∈ d.bases) ∧
  ∃ before after, (classOutput E i).code = indent (before ++ d.text ++ after) c!"\t"

/-- The Python class of `i` is that of `j`, or derived from it. -/
inductive PyDerived : Nat → Nat → Prop where
  | refl {i} : PyDerived i i
  | base {i j k} : ListedBase E i j → PyDerived j k → PyDerived i k

variable {E}

theorem classDef_made (hw : E.Wellfounded) {i : Nat} (h : HasBlock E i) : MadeBy E i (classDef E i) := by
  refine ⟨classDef_name E i, ?_, ?_⟩
  · intro j hj
    exact List.mem_map.2 ⟨j, (mem_boundBases E i j).2 hj, rfl⟩
  · rw [classOutput_eq E hw i h.notBuiltin h.noBinder, classHead_eq E i h.named]
    simp only [List.append_assoc]
    exact ⟨_, _, rfl⟩

theorem classDef_holder (hw : E.Wellfounded) (i : Nat) :
    (Ownable E i → (classDef E i).holder = E.cfg.holderType ++ c!"<" ++ classQualifiedName E (E.cls i) ++ c!">") ∧
    (¬ Ownable E i → (classDef E i).holder = classQualifiedName E (E.cls i) ++ c!"*") := by
  have hs := sharedFromThis_iff E hw i
  show (_ → holderName E i = _) ∧ (_ → holderName E i = _)
  unfold holderName holderText Ownable
  rw [← hs]
  cases sharedFromThis E i with
  | true => simp
  | false =>
    cases hd : (E.cls i).dtorAccess with
    | none => simp
    | some a => cases a <;> simp

theorem heldBy_pointer {q s t : Str} : q ++ c!"*" ≠ s ++ c!"<" ++ t ++ c!">" := by
  intro h
  exact absurd (List.append_inj_right' h rfl) (by decide)

theorem classDef_heldBy (hw : E.Wellfounded) (i : Nat) (s : Str) :
    (classDef E i).HeldBy s ↔ E.cfg.holderType = s ∧ Ownable E i := by
  unfold ClassDef.HeldBy
  rw [classDef_name]
  by_cases ho : Ownable E i
  · rw [(classDef_holder hw i).1 ho]
    simp [ho]
  · rw [(classDef_holder hw i).2 ho]
    simp only [ho, and_false, iff_false]
    exact heldBy_pointer

variable (E)

/-- C111 where it holds: for a class and a base that get bindings, pybind11 accepts the two holders exactly if the configured holder type is
not `std::unique_ptr`, or both classes have public destructors, or neither has. -/
theorem C111_import_partial (hw : E.Wellfounded) (i j : Nat) (hi : HasBlock E i) (hj : HasBlock E j) (h : ListedBase E i j) :
    ∃ d b, MadeBy E i d ∧ MadeBy E j b ∧ b.name ∈ d.bases ∧
      (d.Accepts b ↔ (E.cfg.holderType ≠ c!"std::unique_ptr" ∨ (Ownable E i ↔ Ownable E j))) := by
  refine ⟨classDef E i, classDef E j, classDef_made hw hi, classDef_made hw hj, ?_, ?_⟩
  · rw [classDef_name]; exact (classDef_made hw hi).2.1 j h
  · unfold ClassDef.Accepts ClassDef.DefaultHolder
    rw [classDef_heldBy hw, classDef_heldBy hw]
    by_cases e : E.cfg.holderType = c!"std::unique_ptr" <;> simp [e]

/-- C111 where it holds: a parameter that is a smart pointer to class `q`, of the configured type, can be given the objects of each Python
class with a public destructor that derives from `q`: their holders are such smart pointers. The condition is necessary. -/
theorem C111_pointer_partial (hw : E.Wellfounded) (F : Func) (p : Param) (_hp : p ∈ F.params) (q : Nat)
    (_ht : PointsTo E E.cfg.holderType q p.ty) (i : Nat) (hi : HasBlock E i) (_hd : PyDerived E i q) :
    ∃ d, MadeBy E i d ∧ (d.HeldBy E.cfg.holderType ↔ Ownable E i) :=
  ⟨classDef E i, classDef_made hw hi, by rw [classDef_heldBy hw]; simp⟩

theorem pyDerived_shared {i q : Nat} (hc : ∀ i, (E.cls i).bases ≠ [] → (E.cls i).isComplete = true) (h : PyDerived E i q) (hq : FromShared E q) :
    FromShared E i := by
  induction h with
  | refl => exact hq
  | base hl _ ih =>
    obtain ⟨⟨b, hb, _, hr⟩, _⟩ := hl
    exact .base (hc _ (List.ne_nil_of_mem hb)) hb hr (ih hq)

/-- C111. If class `q` inherits from `std::enable_shared_from_this`, a parameter that is a smart pointer to `q`, of the configured type, can
be given the objects of every Python class that derives from `q`, whatever their destructors are. -/
theorem C111_shared (hw : E.Wellfounded) (hc : ∀ i, (E.cls i).bases ≠ [] → (E.cls i).isComplete = true) (F : Func) (p : Param)
    (hp : p ∈ F.params) (q : Nat) (ht : PointsTo E E.cfg.holderType q p.ty) (hq : FromShared E q) (i : Nat) (hi : HasBlock E i)
    (hd : PyDerived E i q) : ∃ d, MadeBy E i d ∧ d.HeldBy E.cfg.holderType := by
  obtain ⟨d, hm, h⟩ := C111_pointer_partial E hw F p hp q ht i hi hd
  exact ⟨d, hm, h.2 (.inl (pyDerived_shared E hc hd hq))⟩

namespace Ex

def heldName : Ty → Str
  | .record i => [c!"B", c!"D", c!"std::shared_ptr<B>"].getD i []
  | t => exampleTyName t

/-- `class B { protected: ~B(); }; class D : public B {}; void f(std::shared_ptr<B> p);`, with `+custom_shared holder`. -/
def held (holder : Str) (dtor : Option Access) : TransUnit :=
  { env := withClasses { exampleEnv with
        tyName := heldName, cfg := { namespacesToBind := [c!""], holderType := holder }, argRank := fun i => i, baseRank := fun i => i }
      [{ exampleRecord with name := c!"B", qname := c!"B", dtorAccess := dtor },
       { exampleRecord with name := c!"D", qname := c!"D", bases := [⟨.pub, false, some 0⟩] },
       { exampleRecord with name := c!"shared_ptr", qname := c!"std::shared_ptr", targs := some [⟨c!"B", .type (.record 0)⟩] }]
    visits := [.cls 0, .cls 1, .fn { exampleMethod c!"f" false (.basic 0) [⟨c!"p", .record 2, false⟩] with qname := c!"f", method := none }]
    inSystem := fun _ => false, depth := 20 }

end Ex

theorem Ex.held_wellfounded {h : Str} {d : Option Access} : (Ex.held h d).env.Wellfounded :=
  wellfounded_of_ranked (E := (Ex.held h d).env) rfl

/-- C111 is false if the destructor of a class is not public: the holder is a plain pointer, and a function that takes
`std::shared_ptr` is bound, too. When it is called with an object of the class, pybind11 copies the plain pointer as if it were a
`std::shared_ptr`. -/
theorem C111_pointer_false : (Ex.held c!"std::shared_ptr" (some .prot)).env.Wellfounded ∧
    ∃ fs', (Ex.held c!"std::shared_ptr" (some .prot)).Ends (Ex.opts 1000) Ex.fsEmpty (.done fs') ∧ ∃ text, fs'.files c!"out/a.cpp" = some text ∧
      c!"\tpybind11::class_<B, B*> cl(M(\"\"), \"B\", \"\");\n\t\tcl.def( pybind11::init( [](){ return new B(); } ) );\n" <:+: text ∧
      c!"\tM(\"\").def(\"f\", (int (*)(std::shared_ptr<B>)) &f, " <:+: text := by
  obtain ⟨fs', h, hf⟩ := Ex.ends_after (U := Ex.held c!"std::shared_ptr" (some .prot)) (n := 20) (o := Ex.opts 1000) (fs := Ex.fsEmpty)
    (P := fun fs => (fs.files c!"out/a.cpp").any fun text => decide (
      c!"\tpybind11::class_<B, B*> cl(M(\"\"), \"B\", \"\");\n\t\tcl.def( pybind11::init( [](){ return new B(); } ) );\n" <:+: text ∧
      c!"\tM(\"\").def(\"f\", (int (*)(std::shared_ptr<B>)) &f, " <:+: text)) (by decide +kernel)
  refine ⟨Ex.held_wellfounded, fs', h, ?_⟩
  cases e : fs'.files c!"out/a.cpp" with
  | none => rw [e] at hf; cases hf
  | some text => rw [e] at hf; exact ⟨text, rfl, of_decide_eq_true hf⟩

/-- C111 is false if the configured holder is `std::unique_ptr` and the destructor of a base is protected: the holder of the class is the
default of pybind11, that of the base is not, and the import fails. -/
theorem C111_import_false : (Ex.held c!"std::unique_ptr" (some .prot)).env.Wellfounded ∧
    ∃ fs', (Ex.held c!"std::unique_ptr" (some .prot)).Ends (Ex.opts 1000) Ex.fsEmpty (.done fs') ∧ ∃ text, fs'.files c!"out/a.cpp" = some text ∧
      ∃ d b : ClassDef, d.text <:+: text ∧ b.text <:+: text ∧ d.bases = [b.name] ∧ ¬ d.Accepts b := by
  obtain ⟨fs', h, hf⟩ := Ex.ends_after (U := Ex.held c!"std::unique_ptr" (some .prot)) (n := 20) (o := Ex.opts 1000) (fs := Ex.fsEmpty)
    (P := fun fs => (fs.files c!"out/a.cpp").any fun text => decide (
      (⟨c!"D", c!"std::unique_ptr<D>", none, [c!"B"], c!"M(\"\")", c!"D", [], []⟩ : ClassDef).text <:+: text ∧
      (⟨c!"B", c!"B*", none, [], c!"M(\"\")", c!"B", [], []⟩ : ClassDef).text <:+: text)) (by decide +kernel)
  refine ⟨Ex.held_wellfounded, fs', h, ?_⟩
  cases e : fs'.files c!"out/a.cpp" with
  | none => rw [e] at hf; cases hf
  | some text =>
    rw [e] at hf
    have hf := of_decide_eq_true hf
    exact ⟨text, rfl, _, _, hf.1, hf.2, rfl, fun h => absurd (h.1 rfl) (by unfold ClassDef.DefaultHolder ClassDef.HeldBy; decide)⟩

/-- `class B {}; class D : public B {}; void f(std::shared_ptr<B> p);` meets the hypotheses of `C111_import_partial` and
`C111_pointer_partial`, and the holders are accepted. -/
example : let E := (Ex.held c!"std::shared_ptr" none).env
    HasBlock E 0 ∧ HasBlock E 1 ∧ ListedBase E 1 0 ∧ PyDerived E 1 0 ∧ Ownable E 0 ∧ Ownable E 1 ∧ PointsTo E E.cfg.holderType 0 (.record 2) := by
  have hl : ListedBase (Ex.held c!"std::shared_ptr" none).env 1 0 :=
    (mem_boundBases _ _ _).1 (by decide +kernel)
  exact ⟨⟨rfl, by decide +kernel, rfl⟩, ⟨rfl, by decide +kernel, rfl⟩, hl, .base hl .refl, .inr (.inl rfl), .inr (.inl rfl),
    rfl, _, _, rfl, .inl rfl⟩

/-- `class B : public std::enable_shared_from_this<B> { protected: ~B(); }; class D : public B { protected: ~D(); };` -/
def Ex.sharedHeld : Env :=
  withClasses { exampleEnv with tyName := Ex.heldName, argRank := fun i => i, baseRank := fun i => [1, 2, 0, 0].getD i 0 }
    [{ exampleRecord with name := c!"B", qname := c!"B", dtorAccess := some .prot, bases := [⟨.pub, false, some 3⟩] },
     { exampleRecord with name := c!"D", qname := c!"D", dtorAccess := some .prot, bases := [⟨.pub, false, some 0⟩] },
     { exampleRecord with name := c!"shared_ptr", qname := c!"std::shared_ptr", targs := some [⟨c!"B", .type (.record 0)⟩] },
     { exampleRecord with name := c!"enable_shared_from_this", qname := c!"std::enable_shared_from_this" }]

/-- The hypotheses of `C111_shared` are met for `Ex.sharedHeld` and a parameter of type `std::shared_ptr<B>`. -/
example : Ex.sharedHeld.Wellfounded ∧ (∀ i, (Ex.sharedHeld.cls i).bases ≠ [] → (Ex.sharedHeld.cls i).isComplete = true) ∧
    FromShared Ex.sharedHeld 0 ∧ HasBlock Ex.sharedHeld 1 ∧ PyDerived Ex.sharedHeld 1 0 ∧
    PointsTo Ex.sharedHeld Ex.sharedHeld.cfg.holderType 0 (.record 2) ∧ (Ex.sharedHeld.cls 1).dtorAccess = some .prot := by
  refine ⟨wellfounded_of_ranked (by decide), ?_, .base rfl List.mem_cons_self rfl (.self rfl), ⟨rfl, by decide +kernel, rfl⟩,
    .base ((mem_boundBases _ _ _).1 (by decide +kernel)) .refl, ⟨rfl, _, _, rfl, .inl rfl⟩, rfl⟩
  intro i
  match i with
  | 0 | 1 | 2 | 3 => exact fun _ => rfl
  | _ + 4 => exact fun h => absurd rfl h

end Binder
