import Verif.Lemmas.Trampoline
import Verif.Props.Queries
import Verif.Basic.TyEq

/-!
# C49 - C51, C59: callback structures
-/

namespace Binder

open Cxx Spec

variable (E : Env)

/-- What is declared for one overriding function. -/
def overrideDecl (className : Str) (o : Override) : OverrideDecl :=
  { alias := o.alias.map fun k => (aliasName k, aliasedType E o.method)
    ret := overrideType E o
    name := o.method.name
    types := o.method.params.map fun p => stdTy E p.ty
    isConst := o.method.isConst
    exception := exceptionText o.method
    body := overrideBodyText E className o }

theorem overrideText_eq (className : Str) (o : Override) : overrideText E className o = (overrideDecl E className o).text := by
  have h : o.method.name ++ c!"(" ++ (overloadArguments E o.method).1 ++ c!")" ++ maybeConst o.method =
      declarator o.method.name (o.method.params.map fun p => stdTy E p.ty) o.method.isConst := by
    rw [← overrideKey_eq]; unfold overrideKey maybeConst
    cases o.method.isConst <;> simp
  unfold overrideText OverrideDecl.text
  simp only [overrideDecl, ← h]
  cases o with
  | mk c m a => cases a <;> simp [aliasText]

/-- The callback structure of class `i` as a list of declarations. -/
theorem callbackText_eq (i : Nat) : callbackText E i = commentFor E (E.cls i).qname (E.cls i).incl (E.cls i).line ++
    structText (callbackName E i) (classQualifiedName E (E.cls i)) (E.cls i).name
      ((overrides E i).map (overrideDecl E (classQualifiedName E (E.cls i)))) := by
  have : (overrides E i).flatMap (overrideText E (classQualifiedName E (E.cls i))) =
      (((overrides E i).map (overrideDecl E (classQualifiedName E (E.cls i)))).map OverrideDecl.text).flatten := by
    rw [List.flatMap_def, List.map_map]
    congr 1
    apply List.map_congr_left
    intro o _; exact overrideText_eq E _ o
  unfold callbackText structText
  rw [← this]; simp

/-! ## C49: nothing pure is left -/

/-- C49, the part that holds. A callback structure is emitted for class `i`; `m` is a pure virtual function (not a destructor) of `i` or
of one of its bases, and all classes from `i` to the one that declares `m` are abstract, as they are if `m` still lacks an implementation
in `i`. Then the structure declares a function with the name, the parameter types and the constness of `m`, marked `override`, except
in two cases: `m` comes from a proper base that also has a non-`const` function with the signature of `m`; or some function with the
signature of `m` in the hierarchy is `final`. Both cases really occur (`C49_const_overload_false`, `C49_final_false`). -/
theorem C49_overrides_partial (hw : E.Wellfounded) (i j : Nat) (m : Func) (ht : trampoline E i = true) (hp : AbstractPath E i j)
    (hm : m ∈ (E.cls j).methods) (mi : Method) (hmi : m.method = some mi) (hpar : mi.parent = j) (hk : mi.kind = .ordinary)
    (hpure : mi.isPure = true) (hvirt : mi.isVirtual = true)
    (hconst : j = i ∨ ¬ (m.isConst = true ∧ ∃ g ∈ (E.cls j).methods, g.access = m.access ∧ g.isConst = false ∧
      functionQualifiedName E m true = functionQualifiedName E g true ++ c!" const"))
    (hfinal : ¬ ∃ c, Inherits E notPrivate i c ∧ ∃ f ∈ (E.cls c).methods, methodFinal f = true ∧
      declarator f.name (f.params.map fun p => stdTy E p.ty) f.isConst = declarator m.name (m.params.map fun p => stdTy E p.ty) m.isConst) :
    ∃ ds, callbackText E i = commentFor E (E.cls i).qname (E.cls i).incl (E.cls i).line ++
        structText (callbackName E i) (classQualifiedName E (E.cls i)) (E.cls i).name ds ∧
      ∃ d ∈ ds, declarator d.name d.types d.isConst = declarator m.name (m.params.map fun p => stdTy E p.ty) m.isConst := by
  simp only [trampoline, Bool.and_eq_true] at ht
  obtain ⟨hin, hb⟩ := constructible_path E hw hp ht.2
  have hb' : pureBlocked E m = false := by
    have := List.any_eq_false.1 hb m hm
    simpa using this
  have hpu : m.isPure = true := by simp [Func.isPure, hmi, hpure]
  have hvi : m.isVirtual = true := by simp [Func.isVirtual, hmi, hvirt]
  have hct : m.isCtor = false := by
    obtain ⟨a, b, c, _, _, _, _, _, _, _⟩ := mi; simp only at hk; subst hk; simp [Func.isCtor, hmi]
  have hdt : m.isDtor = false := by
    obtain ⟨a, b, c, _, _, _, _, _, _, _⟩ := mi; simp only at hk; subst hk; simp [Func.isDtor, hmi]
  have hacc : m.access = mi.access := by simp [Func.access, hmi]
  have hco : isConstOverload E m = false := by
    rcases hconst with rfl | hconst
    · have h := ht.1
      rw [callbackNeeded_eq E hw] at h
      have ha : (E.cls j).isAbstract = true := by cases hp <;> assumption
      cases hc : isConstOverload E m with
      | false => rfl
      | true =>
        have : (E.cls j).methods.any (fun m => m.isPure && isConstOverload E m) = true :=
          List.any_eq_true.2 ⟨m, hm, by simp [hpu, hc]⟩
        simp [ha, this] at h
    · cases hc : isConstOverload E m with
      | false => rfl
      | true =>
        exfalso; apply hconst
        have := (isConstOverload_iff E m mi hmi).1 hc
        rw [hpar, ← hacc] at this
        exact this
  have hov : overridable E m = true := by
    simp only [pureBlocked, hpu, hct, Bool.not_false, Bool.true_and, Bool.or_eq_false_iff] at hb'
    obtain ⟨⟨h1, h2⟩, h3⟩ := hb'
    simp only [overridable, hct, hdt, hvi, hco, h3, Bool.not_false, Bool.and_true, Bool.and_eq_true]
    exact ⟨by simpa using h1, by simpa using h2⟩
  rcases overrides_complete E hw hin hm hov with ⟨o, ho, hkey⟩ | ⟨c, hc, f, hf, hff, hkey⟩
  · rw [overrideKey_eq, overrideKey_eq] at hkey
    exact ⟨_, callbackText_eq E i, _, List.mem_map_of_mem ho, hkey⟩
  · exact absurd ⟨c, hc, f, hf, hff, by rw [← overrideKey_eq, ← overrideKey_eq, hkey]⟩ hfinal

/-! ### Examples -/

/-- A virtual member function of class `parent` (whose name is `cls`), for the examples below. -/
def virtualMethod (parent : Nat) (cls name : Str) (ret : Ty) (params : List Param) (isConst isPure isFinal : Bool) (access : Access) : Func :=
  { ptr := 1, name := name, qname := cls ++ c!"::" ++ name, incl := c!"<a.h>", line := c!"3", comment := [], ret := ret, params := params,
    isOperator := false, isDeleted := false, isVariadic := false, isConversion := false, templated := .nonTemplate, targs := none,
    method := some { parent := parent, access := access, kind := .ordinary, isStatic := false, isConst := isConst, isVirtual := true,
                     isPure := isPure, isFinal := isFinal, isCopyAssign := false, exceptionSpec := 0 } }

/-- A class with the given name, bases and methods, for the examples below. -/
def exampleClass (name : Str) (isAbstract : Bool) (bases : List Base) (methods : List Func) : Record :=
  { exampleRecord with name := name, qname := name, isAbstract := isAbstract, bases := bases, members := methods.map .method }

/-- Public inheritance. -/
def publicBase (j : Nat) : Base := ⟨.pub, false, some j⟩
/-- Public virtual inheritance. -/
def virtualBase (j : Nat) : Base := ⟨.pub, true, some j⟩

/-- A program made of the listed classes, in which a class only inherits from classes further down the list. -/
def hierarchy (cs : List Record) : Env :=
  { exampleEnv with cls := fun i => cs.getD i exampleRecord, baseRank := fun i => cs.length - i }

/-- `struct B { virtual void f(int) = 0; virtual int g() const; }; struct D : B { void h(); };`: `D` is abstract. -/
def abstractExample : Env := hierarchy
  [exampleClass c!"D" true [publicBase 1] [virtualMethod 0 c!"D" c!"h" (.basic 0) [] false false false .pub],
   exampleClass c!"B" true [] [virtualMethod 1 c!"B" c!"f" (.basic 0) [⟨c!"x", .basic 0, false⟩] false true false .pub,
     virtualMethod 1 c!"B" c!"g" (.basic 0) [] true false false .pub]]

theorem hierarchy_wellfounded (cs : List Record) (ht : ∀ C ∈ cs, C.targs = none)
    (hn : ∀ C ∈ cs, ∀ m ∈ C.members, (∃ f, m = .method f))
    (hb : ∀ i, (h : i < cs.length) → ∀ b ∈ (cs[i]).bases, ∀ j, b.record = some j → i < j ∧ j < cs.length) :
    (hierarchy cs).Wellfounded := by
  have hget : ∀ i, (hierarchy cs).cls i ∈ cs ∨ (hierarchy cs).cls i = exampleRecord := by
    intro i
    simp only [hierarchy, List.getD_eq_getElem?_getD]
    by_cases h : i < cs.length
    · left; rw [List.getElem?_eq_getElem h]; simp
    · right; rw [List.getElem?_eq_none (by omega)]; rfl
  refine ⟨?_, ?_, ?_⟩
  · intro i b hbm j hj
    simp only [hierarchy, List.getD_eq_getElem?_getD] at hbm ⊢
    by_cases h : i < cs.length
    · rw [List.getElem?_eq_getElem h, Option.getD_some] at hbm
      have := hb i h b hbm j hj
      omega
    · rw [List.getElem?_eq_none (by omega), Option.getD_none] at hbm
      simp [exampleRecord] at hbm
  · intro i t htm j hj
    rcases hget i with h | h
    · simp [Record.typeArgs, Record.functionArgTypes, ht _ h] at htm
    · simp [Record.typeArgs, Record.functionArgTypes, h, exampleRecord] at htm
  · intro i j hj
    rcases hget i with h | h
    · simp only [Env.nestedClasses, List.mem_flatMap] at hj
      obtain ⟨m, hm, hj⟩ := hj
      obtain ⟨f, rfl⟩ := hn _ h m hm
      simp at hj
    · simp [Env.nestedClasses, h, exampleRecord] at hj

theorem abstractExample_wellfounded : abstractExample.Wellfounded := by
  apply hierarchy_wellfounded
  · decide +kernel
  · simp [exampleClass]
  · intro i h b hb j hj
    match i, h with
    | 0, _ => simp [exampleClass, publicBase] at hb; subst hb; simp at hj; subst hj; simp
    | 1, _ => simp [exampleClass] at hb

/-- A case of `C49_overrides_partial`: the pure `f(int)` of `B` is overridden in the callback structure of `D`. -/
example : ∃ ds, callbackText abstractExample 0 = commentFor abstractExample (abstractExample.cls 0).qname (abstractExample.cls 0).incl
        (abstractExample.cls 0).line ++
        structText (callbackName abstractExample 0) (classQualifiedName abstractExample (abstractExample.cls 0)) (abstractExample.cls 0).name ds ∧
      ∃ d ∈ ds, declarator d.name d.types d.isConst = c!"f(int a0)" := by
  have h := C49_overrides_partial abstractExample abstractExample_wellfounded 0 1
    (virtualMethod 1 c!"B" c!"f" (.basic 0) [⟨c!"x", .basic 0, false⟩] false true false .pub)
    (by decide +kernel) (.step (b := publicBase 1) (by decide +kernel) (by simp [abstractExample, hierarchy, exampleClass]) rfl (.refl (by decide +kernel)))
    (by simp [abstractExample, hierarchy, exampleClass, Record.methods]) _ rfl rfl rfl rfl rfl
    (.inr (by simp [virtualMethod, Func.isConst])) ?_
  · obtain ⟨ds, h1, d, hd, he⟩ := h
    exact ⟨ds, h1, d, hd, he.trans (by decide +kernel)⟩
  · rintro ⟨c, _, f, hf, hff, _⟩
    revert hff
    simp only [abstractExample, hierarchy] at hf
    match c with
    | 0 => simp [exampleClass, Record.methods] at hf; subst hf; simp [methodFinal, virtualMethod]
    | 1 =>
      simp [exampleClass, Record.methods] at hf
      rcases hf with rfl | rfl <;> simp [methodFinal, virtualMethod]
    | _ + 2 => simp [exampleRecord, Record.methods] at hf

/-- `struct B { virtual void f() = 0; virtual void f() const = 0; }; struct D : B { virtual void g(); };` -/
def constOverloadExample : Env := hierarchy
  [exampleClass c!"D" true [publicBase 1] [virtualMethod 0 c!"D" c!"g" (.basic 0) [] false false false .pub],
   exampleClass c!"B" true [] [virtualMethod 1 c!"B" c!"f" (.basic 0) [] false true false .pub,
     virtualMethod 1 c!"B" c!"f" (.basic 0) [] true true false .pub]]

/-- C49 fails: a callback structure is emitted for `D`, but it has no `f() const`, so it is abstract and its constructors do not
compile. (For `B` itself no structure is emitted.) -/
theorem C49_const_overload_false : ∃ E : Env, E.Wellfounded ∧ ∃ i j m, trampoline E i = true ∧ AbstractPath E i j ∧ m ∈ (E.cls j).methods ∧
    m.isPure = true ∧ m.isDtor = false ∧ (E.cls i).methods.all (fun f => f.name != m.name) = true ∧
    (overrides E i).all (fun o => declarator o.method.name (o.method.params.map fun p => stdTy E p.ty) o.method.isConst !=
      declarator m.name (m.params.map fun p => stdTy E p.ty) m.isConst) = true := by
  refine ⟨constOverloadExample, ?_, 0, 1, virtualMethod 1 c!"B" c!"f" (.basic 0) [] true true false .pub, by decide +kernel,
    .step (b := publicBase 1) (by decide +kernel) (by simp [constOverloadExample, hierarchy, exampleClass]) rfl (.refl (by decide +kernel)),
    by simp [constOverloadExample, hierarchy, exampleClass, Record.methods], rfl, rfl, by decide +kernel, by decide +kernel⟩
  apply hierarchy_wellfounded
  · decide +kernel
  · simp [exampleClass]
  · intro i h b hb j hj
    match i, h with
    | 0, _ => simp [exampleClass, publicBase] at hb; subst hb; simp at hj; subst hj; simp
    | 1, _ => simp [exampleClass] at hb

/-- `struct A { virtual void f() final; }; struct B { virtual void f() = 0; }; struct D : A, B { virtual void g(); };` -/
def finalExample : Env := hierarchy
  [exampleClass c!"D" true [publicBase 1, publicBase 2] [virtualMethod 0 c!"D" c!"g" (.basic 0) [] false false false .pub],
   exampleClass c!"A" false [] [virtualMethod 1 c!"A" c!"f" (.basic 0) [] false false true .pub],
   exampleClass c!"B" true [] [virtualMethod 2 c!"B" c!"f" (.basic 0) [] false true false .pub]]

/-- C49 fails: the structure of `D` leaves the pure `f()` of `B` alone, because `A` has a final `f()`. -/
theorem C49_final_false : ∃ E : Env, E.Wellfounded ∧ ∃ i j m, trampoline E i = true ∧ AbstractPath E i j ∧ m ∈ (E.cls j).methods ∧
    m.isPure = true ∧ m.isDtor = false ∧ m.isConst = false ∧
    (overrides E i).all (fun o => declarator o.method.name (o.method.params.map fun p => stdTy E p.ty) o.method.isConst !=
      declarator m.name (m.params.map fun p => stdTy E p.ty) m.isConst) = true := by
  refine ⟨finalExample, ?_, 0, 2, virtualMethod 2 c!"B" c!"f" (.basic 0) [] false true false .pub, by decide +kernel,
    .step (b := publicBase 2) (by decide +kernel) (by simp [finalExample, hierarchy, exampleClass]) rfl (.refl (by decide +kernel)),
    by simp [finalExample, hierarchy, exampleClass, Record.methods], rfl, rfl, rfl, by decide +kernel⟩
  apply hierarchy_wellfounded
  · decide +kernel
  · simp [exampleClass]
  · intro i h b hb j hj
    match i, h with
    | 0, _ => simp [exampleClass, publicBase] at hb; rcases hb with rfl | rfl <;> (simp at hj; subst hj; simp)
    | 1, _ => simp [exampleClass] at hb
    | 2, _ => simp [exampleClass] at hb

/-! ## C50: nothing is declared twice -/

/-- C50, the part that holds for every hierarchy: no two functions of a callback structure have the same name, the same spelling of
the parameter types and the same constness, and no two aliases have the same name. -/
theorem C50_distinct_partial (i : Nat) : ∃ ds, callbackText E i = commentFor E (E.cls i).qname (E.cls i).incl (E.cls i).line ++
      structText (callbackName E i) (classQualifiedName E (E.cls i)) (E.cls i).name ds ∧
    ds.Pairwise (fun d e => ¬ (d.name = e.name ∧ d.types = e.types ∧ d.isConst = e.isConst)) ∧
    (ds.filterMap fun d => d.alias.map Prod.fst).Nodup := by
  obtain ⟨_, h2, _, h4, _⟩ := overrides_inv E i
  refine ⟨_, callbackText_eq E i, ?_, ?_⟩
  · rw [List.pairwise_map]
    rw [List.Nodup, List.pairwise_map] at h2
    refine List.Pairwise.imp ?_ h2
    rintro o p hne ⟨h1, h2, h3⟩
    apply hne
    rw [overrideKey_eq, overrideKey_eq]
    simp only [overrideDecl] at h1 h2 h3
    rw [h1, h2, h3]
  · rw [List.filterMap_map]
    have : (overrides E i).filterMap ((fun d : OverrideDecl => d.alias.map Prod.fst) ∘ overrideDecl E (classQualifiedName E (E.cls i))) =
        ((overrides E i).filterMap (·.alias)).map aliasName := by
      rw [List.map_filterMap]
      congr 1
      funext o
      simp [overrideDecl, Function.comp_def]
    rw [this, List.Nodup, List.pairwise_map]
    refine List.Pairwise.imp ?_ h4
    intro a b hne hab
    apply hne
    have : natStr a = natStr b := by simpa [aliasName] using hab
    exact natStr_injective this

/-- C50 for the signatures as C++ compares them: no two functions of a callback structure have the same signature, provided no parameter
is `const` at the top and none is spelled `std::size_t`. -/
theorem C50_signatures_partial (i : Nat) (h : ∀ o ∈ overrides E i, ∀ p ∈ o.method.params,
    p.ty.canon.unqual = p.ty.canon ∧ E.tyName p.ty ≠ c!"std::size_t") :
    (overrides E i).Pairwise fun o o' => ¬ SameSignature o.method o'.method := by
  have h2 := (overrides_inv E i).2.1
  rw [List.Nodup, List.pairwise_map] at h2
  refine List.Pairwise.imp_of_mem ?_ h2
  rintro o p ho hp hne ⟨h1, h2, h3⟩
  apply hne
  have key : ∀ o ∈ overrides E i, o.method.params.map (fun p => stdTy E p.ty) =
      (o.method.params.map paramType).map fun t => stdName E (E.tyName t) := by
    intro o ho
    rw [List.map_map]
    apply List.map_congr_left
    intro q hq
    obtain ⟨e1, e2⟩ := h o ho q hq
    simp only [stdTy, if_neg e2, Function.comp_def, paramType, e1]
  rw [overrideKey_eq, overrideKey_eq, h1, h3, key o ho, key p hp, h2]

/-- `struct B { virtual void f(int); }; struct D : B { void f(const int) override; };` -/
def topConstExample : Env := hierarchy
  [exampleClass c!"D" false [publicBase 1]
     [virtualMethod 0 c!"D" c!"f" (.basic 0) [⟨c!"x", .const (.basic 0), false⟩] false false false .pub],
   exampleClass c!"B" false [] [virtualMethod 1 c!"B" c!"f" (.basic 0) [⟨c!"x", .basic 0, false⟩] false false false .pub]]

/-- C50 fails: the function of `D` overrides the one of `B`, and the callback structure of `D` declares both, as `f(const int a0)` and
`f(int a0)`, which C++ rejects. -/
theorem C50_signature_false : ∃ E : Env, ∃ i o o', trampoline E i = true ∧ overrides E i = [o, o'] ∧ SameSignature o.method o'.method :=
  ⟨topConstExample, 0, ⟨0, virtualMethod 0 c!"D" c!"f" (.basic 0) [⟨c!"x", .const (.basic 0), false⟩] false false false .pub, none⟩,
    ⟨1, virtualMethod 1 c!"B" c!"f" (.basic 0) [⟨c!"x", .basic 0, false⟩] false false false .pub, none⟩, by decide +kernel,
    by decide +kernel, ⟨rfl, rfl, rfl⟩⟩

/-- A case of `C50_signatures_partial`: the structure of `D` in `abstractExample` has the functions `h()`, `f(int)`, `g() const`. -/
example : (overrides abstractExample 0).map (fun o => overrideKey abstractExample o.method) = [c!"h()", c!"f(int a0)", c!"g() const"] ∧
    ∀ o ∈ overrides abstractExample 0, ∀ p ∈ o.method.params, p.ty.canon.unqual = p.ty.canon ∧ abstractExample.tyName p.ty ≠ c!"std::size_t" :=
  ⟨by decide +kernel, by decide +kernel⟩

/-! ## C51: overriding functions forward to the most derived implementation -/

/-- C51. Every function of the callback structure of class `i` stands for a method `m` of a class `c`: `i` itself or a base of it that is
not private. The method is virtual, not private and not `final`; and on the way from `i` to `c` no class has a method with the signature
of `m` that the structure could have taken instead. -/
theorem C51_source (i : Nat) (o : Override) (ho : o ∈ overrides E i) :
    o.method ∈ (E.cls o.cls).methods ∧ o.method.isVirtual = true ∧ o.method.access ≠ .priv ∧ methodFinal o.method = false ∧
    FirstAlong E notPrivate (fun c => ∃ m ∈ (E.cls c).methods, overridable E m = true ∧
      declarator m.name (m.params.map fun p => stdTy E p.ty) m.isConst =
        declarator o.method.name (o.method.params.map fun p => stdTy E p.ty) o.method.isConst) i o.cls := by
  obtain ⟨h1, h2, h3, h4⟩ := overrides_source E ho
  have h5 : o.method.isVirtual = true ∧ o.method.access ≠ .priv := by
    simp only [overridable, Bool.and_eq_true] at h2
    exact ⟨h2.1.2, by simpa using h2.1.1.1.1.1.1⟩
  refine ⟨h1, h5.1, h5.2, h3, ?_⟩
  simpa only [overrideKey_eq] using h4

theorem inherits_single {ok : Base → Prop} (hs : SingleInheritance E) {has : Nat → Prop} {i k : Nat} (h : FirstAlong E ok has i k) :
    ∀ c, Inherits E ok i c → has c → Inherits E ok k c := by
  induction h with
  | here => intro c hc _; exact hc
  | @down i j k b hn hb hok hr _ ih =>
    intro c hc hhas
    cases hc with
    | refl => exact absurd hhas hn
    | @step _ j' _ b' hb' _ hr' hc =>
      have hl := hs i
      have : b = b' := by
        match hbs : (E.cls i).bases with
        | [] => rw [hbs] at hb; cases hb
        | [x] => rw [hbs] at hb hb'; simp at hb hb'; rw [hb, hb']
        | x :: y :: l => rw [hbs] at hl; simp at hl
      subst this
      rw [hr] at hr'; cases hr'
      exact ih c hc hhas

/-- C51, the part that holds without multiple inheritance, for a signature all of whose virtual methods can be overridden from Python
(none is private, skipped or uses a type that cannot be bound): the method a function of the structure stands for is declared in the
most derived class that declares one with its signature. Every other class that does so is a base of that class. -/
theorem C51_most_derived_partial (hs : SingleInheritance E) (i : Nat) (o : Override) (ho : o ∈ overrides E i)
    (hall : ∀ c, Inherits E notPrivate i c → ∀ m ∈ (E.cls c).methods, m.isVirtual = true →
      declarator m.name (m.params.map fun p => stdTy E p.ty) m.isConst =
        declarator o.method.name (o.method.params.map fun p => stdTy E p.ty) o.method.isConst → overridable E m = true)
    (c : Nat) (hc : Inherits E notPrivate i c) (m : Func) (hm : m ∈ (E.cls c).methods) (hv : m.isVirtual = true)
    (hd : declarator m.name (m.params.map fun p => stdTy E p.ty) m.isConst =
        declarator o.method.name (o.method.params.map fun p => stdTy E p.ty) o.method.isConst) :
    Inherits E notPrivate o.cls c :=
  inherits_single E hs (C51_source E i o ho).2.2.2.2 c hc ⟨m, hm, hall c hc m hm hv hd, hd⟩

theorem overloadArguments_snd (F : Func) : (overloadArguments E F).2 = listText (argNames F.params.length) := by
  have := take_zipIdx_names F.params F.params.length (Nat.le_refl _)
  rw [List.take_of_length_le (by simp)] at this
  simp only [overloadArguments, commaSep_eq, this]

theorem overrideBody_eq (cls name ret : Str) (args : List Str) : overrideBody cls name (listText args) ret = Dispatch.text ⟨cls, name, args, ret⟩ := by
  have h1 : "if (overload) {\n\tauto o = overload.operator()<pybind11::return_value_policy::reference>(".toList =
      c!"if (overload) {\n" ++ "\tauto o = overload.operator()<pybind11::return_value_policy::reference>(".toList := by decide +kernel
  have h2 : "\npybind11::gil_scoped_acquire gil;\npybind11::function overload = pybind11::get_overload(static_cast<const ".toList =
      "\npybind11::gil_scoped_acquire gil;\n".toList ++
      "pybind11::function overload = pybind11::get_overload(static_cast<const ".toList := by decide +kernel
  unfold overrideBody Dispatch.text
  rw [h1, h2]
  simp only [List.append_assoc, List.cons_append, List.nil_append]

/-- C51, what a function of the callback structure does if Python does not override the method: it returns the result of calling the
implementation of the class it stands for, qualified, with all arguments. (If the user asked for a custom trampoline, that is called
instead; if the method is pure, an exception is thrown, see C68.) -/
theorem C51_forwards (className : Str) (o : Override)
    (hcustom : customTrampolineFunction E.cfg (memberFunctionName E o) = []) (hpure : o.method.isPure = false) :
    (overrideDecl E className o).body = indent (Dispatch.text ⟨className, pythonFunctionName o.method, argNames o.method.params.length,
        (overrideDecl E className o).ret⟩) c!"\t\t" ++ c!"\t\treturn " ++ (E.cls o.cls).name ++ c!"::" ++ o.method.name ++ c!"(" ++
        listText (argNames o.method.params.length) ++ c!");\n" := by
  rw [← overrideBody_eq]
  simp only [overrideDecl, overrideBodyText, hcustom, if_true, overrideFallback, hpure, Bool.false_eq_true, if_false, overloadArguments_snd,
    List.append_assoc]

/-- C68. Every function of the callback structure of a class, unless the user asked for a custom trampoline, first looks for a Python
override: the object is looked up as the class that is registered (`ClassDef.name` in C61), the method under the name it is bound
under in Python, and all arguments are passed on in order. Only if there is none, the function goes on: it calls the implementation of
the method, or, if the method is pure, throws an exception that names the method. -/
theorem C68_dispatch (i : Nat) : ∃ f : Override → OverrideDecl,
    callbackText E i = commentFor E (E.cls i).qname (E.cls i).incl (E.cls i).line ++
      structText (callbackName E i) (classQualifiedName E (E.cls i)) (E.cls i).name ((overrides E i).map f) ∧
    ∀ o ∈ overrides E i, (f o).name = o.method.name ∧ (f o).types.length = o.method.params.length ∧
      (customTrampolineFunction E.cfg (memberFunctionName E o) = [] → (f o).body =
        indent (Dispatch.text ⟨classQualifiedName E (E.cls i), pythonFunctionName o.method, argNames (f o).types.length, (f o).ret⟩) c!"\t\t" ++
        (if o.method.isPure then "\t\tpybind11::pybind11_fail(\"Tried to call pure virtual function \\\"".toList ++ (E.cls o.cls).name ++ c!"::" ++
            pythonFunctionName o.method ++ c!"\\\"\");\n"
         else c!"\t\treturn " ++ (E.cls o.cls).name ++ c!"::" ++ o.method.name ++ c!"(" ++ listText (argNames (f o).types.length) ++ c!");\n")) := by
  refine ⟨_, callbackText_eq E i, fun o _ => ⟨rfl, by simp [overrideDecl], fun hc => ?_⟩⟩
  have hl : (overrideDecl E (classQualifiedName E (E.cls i)) o).types.length = o.method.params.length := by simp [overrideDecl]
  rw [hl, ← overrideBody_eq]
  simp only [overrideDecl, overrideBodyText, hc, if_true, overrideFallback, overloadArguments_snd]

/-- Methods marked `final` are never overridden. -/
theorem C51_final (i : Nat) (o : Override) (ho : o ∈ overrides E i) : methodFinal o.method = false := (C51_source E i o ho).2.2.2.1

/-- `struct B { virtual int f(); }; struct D : B { private: int f() override; };` -/
def privateExample : Env := hierarchy
  [exampleClass c!"D" false [publicBase 1] [virtualMethod 0 c!"D" c!"f" (.basic 0) [] false false false .priv],
   exampleClass c!"B" false [] [virtualMethod 1 c!"B" c!"f" (.basic 0) [] false false false .pub]]

/-- C51 fails for a private override: the structure of `D` forwards to `B::f`, although `D` overrides `f`. -/
theorem C51_private_false : ∃ E : Env, SingleInheritance E ∧ ∃ i o m, trampoline E i = true ∧ o ∈ overrides E i ∧ o.cls ≠ i ∧
    m ∈ (E.cls i).methods ∧ m.isVirtual = true ∧ SameSignature m o.method := by
  refine ⟨privateExample, ?_, 0, ⟨1, virtualMethod 1 c!"B" c!"f" (.basic 0) [] false false false .pub, none⟩,
    virtualMethod 0 c!"D" c!"f" (.basic 0) [] false false false .priv, by decide +kernel, by decide +kernel, by decide,
    by simp [privateExample, hierarchy, exampleClass, Record.methods], rfl, rfl, rfl, rfl⟩
  intro i
  match i with
  | 0 => simp [privateExample, hierarchy, exampleClass]
  | 1 => simp [privateExample, hierarchy, exampleClass]
  | _ + 2 => simp [privateExample, hierarchy, exampleRecord]

/-- `struct V { virtual int f(); }; struct A : virtual V {}; struct B : virtual V { int f() override; }; struct D : A, B {};` -/
def diamondExample : Env := hierarchy
  [exampleClass c!"D" false [publicBase 1, publicBase 2] [],
   exampleClass c!"A" false [virtualBase 3] [],
   exampleClass c!"B" false [virtualBase 3] [virtualMethod 2 c!"B" c!"f" (.basic 0) [] false false false .pub],
   exampleClass c!"V" false [] [virtualMethod 3 c!"V" c!"f" (.basic 0) [] false false false .pub]]

/-- C51 fails for a virtual diamond: in C++ a `D` runs `B::f`, which overrides `V::f`; the structure of `D` forwards to `V::f`, which it
finds first, through `A`. -/
theorem C51_diamond_false : ∃ E : Env, ∃ i o c m, trampoline E i = true ∧ o ∈ overrides E i ∧ Inherits E notPrivate i c ∧
    m ∈ (E.cls c).methods ∧ overridable E m = true ∧ SameSignature m o.method ∧ c ≠ o.cls ∧ Inherits E notPrivate c o.cls := by
  refine ⟨diamondExample, 0, ⟨3, virtualMethod 3 c!"V" c!"f" (.basic 0) [] false false false .pub, none⟩, 2,
    virtualMethod 2 c!"B" c!"f" (.basic 0) [] false false false .pub, by decide +kernel, by decide +kernel,
    .step (b := publicBase 2) (by simp [diamondExample, hierarchy, exampleClass]) (by simp [notPrivate, publicBase]) rfl .refl,
    by simp [diamondExample, hierarchy, exampleClass, Record.methods], by decide +kernel, ⟨rfl, rfl, rfl⟩, by decide,
    .step (b := virtualBase 3) (by simp [diamondExample, hierarchy, exampleClass]) (by simp [notPrivate, virtualBase]) rfl .refl⟩

/-- `V::f` and `B::f` as in `diamondExample`, but `B::f` is final. -/
def finalDiamondExample : Env := hierarchy
  [exampleClass c!"D" false [publicBase 1, publicBase 2] [],
   exampleClass c!"A" false [virtualBase 3] [],
   exampleClass c!"B" false [virtualBase 3] [virtualMethod 2 c!"B" c!"f" (.basic 0) [] false false true .pub],
   exampleClass c!"V" false [] [virtualMethod 3 c!"V" c!"f" (.basic 0) [] false false false .pub]]

/-- C51 fails for a virtual diamond with a final function: the structure of `D` overrides `f`, which is final in `D`; C++ rejects it. -/
theorem C51_final_false : ∃ E : Env, ∃ i o c m, trampoline E i = true ∧ o ∈ overrides E i ∧ Inherits E notPrivate i c ∧
    m ∈ (E.cls c).methods ∧ SameSignature m o.method ∧ methodFinal m = true ∧ Inherits E notPrivate c o.cls := by
  refine ⟨finalDiamondExample, 0, ⟨3, virtualMethod 3 c!"V" c!"f" (.basic 0) [] false false false .pub, none⟩, 2,
    virtualMethod 2 c!"B" c!"f" (.basic 0) [] false false true .pub, by decide +kernel, by decide +kernel,
    .step (b := publicBase 2) (by simp [finalDiamondExample, hierarchy, exampleClass]) (by simp [notPrivate, publicBase]) rfl .refl,
    by simp [finalDiamondExample, hierarchy, exampleClass, Record.methods], ⟨rfl, rfl, rfl⟩, rfl,
    .step (b := virtualBase 3) (by simp [finalDiamondExample, hierarchy, exampleClass]) (by simp [notPrivate, virtualBase]) rfl .refl⟩

/-- A case of `C51_most_derived_partial`: `D::g` overrides `B::g`, and the structure of `D` forwards to `D::g`. -/
def overrideExample : Env := hierarchy
  [exampleClass c!"D" false [publicBase 1] [virtualMethod 0 c!"D" c!"g" (.basic 0) [⟨c!"x", .basic 0, false⟩] true false false .pub],
   exampleClass c!"B" false [] [virtualMethod 1 c!"B" c!"f" (.basic 0) [] false false false .pub,
     virtualMethod 1 c!"B" c!"g" (.basic 0) [⟨c!"y", .basic 0, false⟩] true false false .pub]]

example : SingleInheritance overrideExample ∧ trampoline overrideExample 0 = true ∧
    (overrides overrideExample 0).map (fun o => (o.cls, overrideKey overrideExample o.method)) = [(0, c!"g(int a0) const"), (1, c!"f()")] ∧
    (∀ c, ∀ m ∈ (overrideExample.cls c).methods, overridable overrideExample m = true) := by
  refine ⟨?_, by decide +kernel, by decide +kernel, ?_⟩
  · intro i
    match i with
    | 0 => simp [overrideExample, hierarchy, exampleClass]
    | 1 => simp [overrideExample, hierarchy, exampleClass]
    | _ + 2 => simp [overrideExample, hierarchy, exampleRecord]
  · intro c
    match c with
    | 0 => decide +kernel
    | 1 => decide +kernel
    | _ + 2 => simp [overrideExample, hierarchy, exampleRecord, Record.methods]

/-! ## C59: exception specifications of overriding functions -/

/-- C59, the part that holds: for a method without exception specification, with `throw()`, `__declspec(nothrow)` or `noexcept`, the
overriding function promises not to throw exactly if the method does. -/
theorem C59_exceptions_partial (m : Func) (mi : Method) (hm : m.method = some mi) (s : Exceptions) (hs : mi.exceptionSpec = s.code)
    (hk : s = .none ∨ s = .dynamicNone ∨ s = .noThrow ∨ s = .basicNoexcept) :
    (exceptionText m = c!"noexcept " ∨ exceptionText m = c!"throw() " ∨ exceptionText m = []) ∧
    (s.nonThrowing = true ↔ exceptionText m ≠ []) := by
  unfold exceptionText
  rw [hm]
  simp only [hs]
  rcases hk with rfl | rfl | rfl | rfl <;> decide

/-- C59 fails: a method that is `noexcept(true)` is overridden by a function without exception specification, which C++ rejects. -/
theorem C59_noexcept_true_false : ∃ m mi, m.method = some mi ∧ mi.exceptionSpec = Exceptions.noexceptTrue.code ∧
    Exceptions.noexceptTrue.nonThrowing = true ∧ exceptionText m = [] :=
  ⟨{ exampleMethod c!"f" false (.basic 0) [] with method := some ⟨0, .pub, .ordinary, false, false, true, false, false, false, 8⟩ }, _, rfl, rfl, rfl,
    by decide⟩

/-- C59 fails: a method that may throw, because it is `noexcept(false)`, is overridden by a function that is `throw()`, so an exception
from Python or from the C++ implementation ends the program. The same happens for `throw(X)`. -/
theorem C59_noexcept_false_false : ∀ s : Exceptions, s = .noexceptFalse ∨ s = .dynamic → ∃ m mi, m.method = some mi ∧ mi.exceptionSpec = s.code ∧
    s.nonThrowing = false ∧ exceptionText m = c!"throw() " := by
  intro s hs
  refine ⟨{ exampleMethod c!"f" false (.basic 0) [] with method := some ⟨0, .pub, .ordinary, false, false, true, false, false, false, s.code⟩ }, _,
    rfl, rfl, ?_, ?_⟩
  · rcases hs with rfl | rfl <;> rfl
  · rcases hs with rfl | rfl <;> decide

end Binder
