import Verif.Props.ClassHead

/-!
# C105: the generated code takes the address of data members only where C++ allows it

The statement for a data member contains `&C::x`.
-/

namespace Binder

open Cxx Spec

variable (E : Env)

/-- C++ accepts `&C::x` outside the class for the data member `f` of class `C`: it is public in `C`, it has a name, it is no reference and no
bit-field ([expr.unary.op]). `bits` says which data members are bit-fields. -/
structure HasAddress (bits : Field → Prop) (C : Record) (f : Field) : Prop where
  isPublic : PublicField C f ∨ MadePublic C (.field f)
  named : f.name ≠ []
  noReference : (∀ t, f.ty.canon ≠ .lref t) ∧ ∀ t, f.ty.canon ≠ .rref t
  noBits : ¬ bits f

theorem head_of_canon_lref : ∀ {t u : Ty}, t.canon = .lref u → t.isRef = true
  | .lref _, _, _ => rfl
  | .rref _, _, _ => rfl
  | .sugar _ t, u, h => by
    rw [Ty.canon] at h
    have := head_of_canon_lref h
    simpa [Ty.isRef, Ty.isLRef, Ty.isRRef, Ty.head] using this
  | .const t, u, h => by
    rw [Ty.canon] at h
    have e : t.canon = .lref u := by
      revert h; generalize t.canon = c; intro h; cases c <;> simp_all [Ty.mkConst]
    have := head_of_canon_lref e
    simpa [Ty.isRef, Ty.isLRef, Ty.isRRef, Ty.head] using this
  | .basic _, _, h => by cases h
  | .dep _, _, h => by cases h
  | .record _, _, h => by cases h
  | .enum _, _, h => by cases h
  | .ptr _, _, h => by rw [Ty.canon] at h; cases h
  | .arr _, _, h => by rw [Ty.canon] at h; cases h
  | .fn _ _, _, h => by rw [Ty.canon] at h; cases h

theorem head_of_canon_rref : ∀ {t u : Ty}, t.canon = .rref u → t.isRef = true
  | .lref _, _, _ => rfl
  | .rref _, _, _ => rfl
  | .sugar _ t, u, h => by
    rw [Ty.canon] at h
    have := head_of_canon_rref h
    simpa [Ty.isRef, Ty.isLRef, Ty.isRRef, Ty.head] using this
  | .const t, u, h => by
    rw [Ty.canon] at h
    have e : t.canon = .rref u := by
      revert h; generalize t.canon = c; intro h; cases c <;> simp_all [Ty.mkConst]
    have := head_of_canon_rref e
    simpa [Ty.isRef, Ty.isLRef, Ty.isRRef, Ty.head] using this
  | .basic _, _, h => by cases h
  | .dep _, _, h => by cases h
  | .record _, _, h => by cases h
  | .enum _, _, h => by cases h
  | .ptr _, _, h => by rw [Ty.canon] at h; cases h
  | .arr _, _, h => by rw [Ty.canon] at h; cases h
  | .fn _ _, _, h => by rw [Ty.canon] at h; cases h

/-- C105, partial. For every data member among the items of a class, the generated statement takes its address as a member of its class, and C++
allows that exactly if the member has a name and is no bit-field. The generator looks at neither, see `C105_unnamed_false` and
`C105_bits_false`. -/
theorem C105_address_partial (hw : E.Wellfounded) (i k : Nat) (f : Field) (h : Item.field k f ∈ classItems E i)
    (hn : (classQualifiedName E (E.cls k)).getLast? ≠ some ')') :
    (∃ readonly, itemText E i (.field k f) = c!"\tcl" ++ fieldText readonly f.name (classQualifiedName E (E.cls k)) ++ c!";\n") ∧
    ∀ bits : Field → Prop, HasAddress bits (E.cls k) f ↔ f.name ≠ [] ∧ ¬ bits f := by
  obtain ⟨-, hpub, -, hb⟩ := (C48_fields E hw i k f).1 h
  constructor
  · refine ⟨f.ty.isConst || !fieldAssignable E f, ?_⟩
    show c!"\tcl" ++ dataMemberText E f (classQualifiedName E (E.cls k)) ++ c!";\n" = _
    congr 2
    rw [dataMemberText, stripAnonymous_named hn]
    cases f.ty.isConst || !fieldAssignable E f <;> simp [fieldText]
  · intro bits
    refine ⟨fun h => ⟨h.named, h.noBits⟩, fun h => ⟨hpub, h.1, ⟨fun t ht => ?_, fun t ht => ?_⟩, h.2⟩⟩
    · simp [fieldBindable, head_of_canon_lref ht] at hb
    · simp [fieldBindable, head_of_canon_rref ht] at hb

/-- `unsigned A::x`, or, if `n` is empty, a member without a name. -/
def Ex.bitField (n : Str) : Field := ⟨n, c!"A::" ++ n, .basic 0, .pub, false⟩

/-- C105 is false for bit-fields like `struct A { unsigned x : 3; };`: the generated code contains `&A::x`, which C++ does not allow. -/
theorem C105_bits_false : ∃ (E : Env) (f : Field) (bits : Field → Prop), PublicField (E.cls 0) f ∧ bits f ∧ Item.field 0 f ∈ classItems E 0 ∧
    itemText E 0 (.field 0 f) = c!"\tcl.def_readwrite(\"x\", &A::x);\n" ∧ ¬ HasAddress bits (E.cls 0) f :=
  ⟨classWith [.field (Ex.bitField c!"x")], Ex.bitField c!"x", fun _ => True, ⟨rfl, List.mem_cons_self⟩, trivial,
    (C48_fields _ (classWith_wellfounded _ (by simp)) 0 0 _).2 ⟨.inl rfl, .inl ⟨rfl, List.mem_cons_self⟩, by decide +kernel, by decide +kernel⟩,
    by decide +kernel, fun h => h.noBits trivial⟩

/-- C105 is false for bit-fields without a name, like `struct A { unsigned : 3; };`: they are bound, too, and `&A::` is no C++ expression. -/
theorem C105_unnamed_false : ∃ (E : Env) (f : Field), PublicField (E.cls 0) f ∧ Item.field 0 f ∈ classItems E 0 ∧
    itemText E 0 (.field 0 f) = c!"\tcl.def_readwrite(\"\", &A::);\n" ∧ ∀ bits, ¬ HasAddress bits (E.cls 0) f :=
  ⟨classWith [.field (Ex.bitField [])], Ex.bitField [], ⟨rfl, List.mem_cons_self⟩,
    (C48_fields _ (classWith_wellfounded _ (by simp)) 0 0 _).2 ⟨.inl rfl, .inl ⟨rfl, List.mem_cons_self⟩, by decide +kernel, by decide +kernel⟩,
    by decide +kernel, fun _ h => h.named rfl⟩

/-- A case of `C105_address_partial`: the member `x` of `struct A { int x; };`. -/
example : let E := classWith [.field (Ex.bitField c!"x")]
    E.Wellfounded ∧ Item.field 0 (Ex.bitField c!"x") ∈ classItems E 0 ∧ classQualifiedName E (E.cls 0) = c!"A" ∧
    HasAddress (fun _ => False) (E.cls 0) (Ex.bitField c!"x") := by
  have hw := classWith_wellfounded [.field (Ex.bitField c!"x")] (by simp)
  have hm : Item.field 0 (Ex.bitField c!"x") ∈ classItems (classWith [.field (Ex.bitField c!"x")]) 0 :=
    (C48_fields _ hw 0 0 _).2 ⟨.inl rfl, .inl ⟨rfl, List.mem_cons_self⟩, by decide +kernel, by decide +kernel⟩
  have hn : classQualifiedName (classWith [.field (Ex.bitField c!"x")]) ((classWith [.field (Ex.bitField c!"x")]).cls 0) = c!"A" := by decide +kernel
  refine ⟨hw, hm, hn, ((C105_address_partial _ hw 0 0 _ hm ?_).2 _).2 ⟨by decide, id⟩⟩
  rw [hn]; decide

end Binder
