import Verif.Props.Trampoline
import Verif.Props.Call
import Verif.Spec.Virtual

/-!
# C95: virtual calls reach Python
-/

namespace Binder

open Cxx Spec

variable (E : Env)

/-! ## What a declarator says -/

theorem first_cut {c : Char} {x y d e : Str} (h : x ++ c :: d = y ++ c :: e) (hx : c ∉ x) (hy : c ∉ y) : x = y := by
  rcases List.append_eq_append_iff.1 h with ⟨z, h1, h2⟩ | ⟨z, h1, h2⟩
  · cases z with
    | nil => simpa using h1.symm
    | cons a z =>
      obtain rfl : c = a := (List.cons.inj h2).1
      exact absurd (h1 ▸ (by simp)) hy
  · cases z with
    | nil => simpa using h1
    | cons a z =>
      obtain rfl : c = a := (List.cons.inj h2).1
      exact absurd (h1 ▸ (by simp)) hx

theorem last_cut {c : Char} {x y d e : Str} (h : x ++ c :: d = y ++ c :: e) (hd : c ∉ d) (he : c ∉ e) : d = e := by
  rcases List.append_eq_append_iff.1 h with ⟨z, h1, h2⟩ | ⟨z, h1, h2⟩
  · cases z with
    | nil => exact (List.cons.inj h2).2
    | cons a z => exact absurd ((List.cons.inj h2).2 ▸ (by simp)) hd
  · cases z with
    | nil => exact (List.cons.inj h2).2.symm
    | cons a z => exact absurd ((List.cons.inj h2).2 ▸ (by simp)) he

theorem listText_last (xs : List Str) (x : Str) : ∃ p, listText (xs ++ [x]) = p ++ x := by
  induction xs with
  | nil => exact ⟨[], by simp [listText, List.intercalate]⟩
  | cons y ys ih =>
    obtain ⟨p, hp⟩ := ih
    rw [List.cons_append, listText_cons, hp]
    exact ⟨y ++ (if (ys ++ [x]).length ≠ 0 then c!", " else []) ++ p, by simp⟩

theorem digits_no_a (n : Nat) : 'a' ∉ Nat.toDigits 10 n := by
  intro h
  have := Nat.isDigit_of_mem_toDigits (by decide) (by decide) h
  revert this; decide

/-- The parameters in a declarator. -/
def paramsText (types : List Str) : Str := listText ((types.zipIdx).map fun p => p.1 ++ c!" " ++ ('a' :: Nat.toDigits 10 p.2))

theorem paramsText_last (ts : List Str) (t : Str) : ∃ p, paramsText (ts ++ [t]) = p ++ 'a' :: Nat.toDigits 10 ts.length := by
  unfold paramsText
  rw [List.zipIdx_append, List.map_append]
  obtain ⟨p, hp⟩ := listText_last ((ts.zipIdx).map fun p => p.1 ++ c!" " ++ ('a' :: Nat.toDigits 10 p.2))
    (t ++ c!" " ++ ('a' :: Nat.toDigits 10 ts.length))
  refine ⟨p ++ t ++ c!" ", ?_⟩
  simp only [List.zipIdx_cons, List.zipIdx_nil, List.map_cons, List.map_nil, Nat.zero_add]
  rw [hp]; simp

theorem digit_last (n : Nat) : ∃ p c, Nat.toDigits 10 n = p ++ [c] ∧ c ≠ '(' := by
  have hne : Nat.toDigits 10 n ≠ [] := by
    intro h
    have := Nat.length_toDigits_pos (b := 10) (n := n)
    simp [h] at this
  refine ⟨_, _, (List.dropLast_concat_getLast hne).symm, ?_⟩
  intro h
  have := Nat.isDigit_of_mem_toDigits (b := 10) (n := n) (by decide) (by decide) (List.getLast_mem hne)
  rw [h] at this; revert this; decide

theorem paramsText_length {n n' : Str} {ts us : List Str} (h : n ++ '(' :: paramsText ts = n' ++ '(' :: paramsText us) : ts.length = us.length := by
  have key : ∀ {n n' : Str} (ts : List Str) (t : Str), n ++ '(' :: paramsText (ts ++ [t]) ≠ n' ++ '(' :: paramsText [] := by
    intro n n' ts t h
    obtain ⟨p, hp⟩ := paramsText_last ts t
    obtain ⟨q, c, hq, hc⟩ := digit_last ts.length
    rw [hp, hq] at h
    have h1 : (n ++ '(' :: (p ++ 'a' :: (q ++ [c]))).getLast? = some c := by
      rw [show n ++ '(' :: (p ++ 'a' :: (q ++ [c])) = (n ++ '(' :: (p ++ 'a' :: q)) ++ [c] from by simp, List.getLast?_append]; rfl
    have h2 : (n' ++ '(' :: paramsText []).getLast? = some '(' := by simp [paramsText, listText, List.intercalate]
    rw [h, h2] at h1
    exact hc (Option.some.inj h1).symm
  rcases List.eq_nil_or_concat ts with rfl | ⟨ts, t, rfl⟩ <;> rcases List.eq_nil_or_concat us with rfl | ⟨us, u, rfl⟩
  all_goals simp only [List.concat_eq_append] at h ⊢
  · exact absurd h.symm (key us u)
  · exact absurd h (key ts t)
  · obtain ⟨p, hp⟩ := paramsText_last ts t
    obtain ⟨q, hq⟩ := paramsText_last us u
    rw [hp, hq] at h
    have h1 : (n ++ '(' :: p) ++ 'a' :: Nat.toDigits 10 ts.length = (n' ++ '(' :: q) ++ 'a' :: Nat.toDigits 10 us.length := by simpa using h
    have := natStr_injective (last_cut h1 (digits_no_a _) (digits_no_a _))
    simp [this]

theorem declarator_cut {n n' : Str} {ts us : List Str} {b b' : Bool} (h : declarator n ts b = declarator n' us b') :
    n ++ '(' :: paramsText ts = n' ++ '(' :: paramsText us ∧ b = b' := by
  have e : ∀ n ts b, declarator n ts b = n ++ '(' :: paramsText ts ++ (if b then c!") const" else c!")") := by
    intro n ts b; cases b <;> simp [declarator, paramsText]
  rw [e, e] at h
  have last : ∀ (x : Str) (b : Bool), (x ++ (if b then c!") const" else c!")")).getLast? = some (if b then 't' else ')') := by
    intro x b
    cases b
    · simp
    · simp only [if_true]
      rw [show x ++ c!") const" = (x ++ c!") cons") ++ c!"t" from by simp]; simp
  have hb : b = b' := by
    have := congrArg List.getLast? h
    rw [last, last] at this
    cases b <;> cases b' <;> simp_all
  subst hb
  exact ⟨List.append_cancel_right h, rfl⟩

theorem properName_cases {f : Func} (h : ProperName f) : '(' ∉ f.name ∨ f.name = c!"operator()" := by
  unfold ProperName at h
  split at h
  · obtain ⟨s, hs, _, h1 | h1⟩ := h
    · left; rw [hs]; simp only [List.mem_append, not_or]; exact ⟨by decide, h1⟩
    · right; rw [hs, h1]; rfl
  · left; intro hc
    have := h.1.2.1 _ hc
    revert this; decide

theorem properName_not {f : Func} (h : ProperName f) : f.name ≠ c!"operator" := by
  unfold ProperName at h
  split at h
  · obtain ⟨s, hs, ⟨c, hc, _⟩, _⟩ := h
    intro e
    rw [hs] at e
    have : s = [] := by simpa using e
    rw [this] at hc; simp at hc
  · exact h.2

theorem properName_operator {f g : Func} (hf : ProperName f) (hg : ProperName g) (h : f.name = g.name) : f.isOperator = g.isOperator := by
  have key : ∀ {f g : Func}, ProperName f → ProperName g → f.name = g.name → f.isOperator = true → g.isOperator = false → False := by
    intro f g hf hg h h1 h2
    unfold ProperName at hf hg
    rw [if_pos h1] at hf
    rw [if_neg (by simp [h2])] at hg
    obtain ⟨s, hs, ⟨c, hc, hi⟩, _⟩ := hf
    have : c ∈ g.name := by
      rw [← h, hs]
      exact List.mem_append_right _ (List.mem_of_mem_head? hc)
    rw [hg.1.2.1 c this] at hi
    exact absurd hi (by decide)
  cases h1 : f.isOperator <;> cases h2 : g.isOperator
  · rfl
  · exact (key hg hf h.symm h2 h1).elim
  · exact (key hf hg h h1 h2).elim
  · rfl

/-- Methods with the same declarator have the same name, in C++ and in Python, and the same number of parameters. -/
theorem declarator_says {f g : Func} (hf : ProperName f) (hg : ProperName g)
    (h : declarator f.name (f.params.map fun p => stdTy E p.ty) f.isConst = declarator g.name (g.params.map fun p => stdTy E p.ty) g.isConst) :
    f.name = g.name ∧ f.params.length = g.params.length ∧ pythonFunctionName f = pythonFunctionName g := by
  have h1 := (declarator_cut h).1
  have hl : f.params.length = g.params.length := by simpa using paramsText_length h1
  have hn : f.name = g.name := by
    rcases properName_cases hf with a | a <;> rcases properName_cases hg with b | b
    · exact first_cut h1 a b
    · rw [b] at h1
      exact absurd (first_cut (d := paramsText (f.params.map fun p => stdTy E p.ty))
        (e := c!")(" ++ paramsText (g.params.map fun p => stdTy E p.ty)) (y := c!"operator") (by simpa using h1) a (by decide)) (properName_not hf)
    · rw [a] at h1
      exact absurd (first_cut (d := paramsText (g.params.map fun p => stdTy E p.ty))
        (e := c!")(" ++ paramsText (f.params.map fun p => stdTy E p.ty)) (y := c!"operator") (by simpa using h1.symm) b (by decide)) (properName_not hg)
    · rw [a, b]
  refine ⟨hn, hl, ?_⟩
  unfold pythonFunctionName
  rw [properName_operator hf hg hn, hn, hl]

/-! ## Virtual calls -/

/-- What a function of a callback structure does first, and what it does otherwise. -/
def dispatchOf (className : Str) (o : Override) : Dispatch :=
  ⟨className, pythonFunctionName o.method, argNames o.method.params.length, overrideType E o⟩

def otherwiseOf (o : Override) : Otherwise :=
  if o.method.isPure then .fails (E.cls o.cls).name (pythonFunctionName o.method)
  else .calls (E.cls o.cls).name o.method.name (argNames o.method.params.length)

theorem otherwise_calls (cls name : Str) (args : List Str) :
    (Otherwise.calls cls name args).text = c!"return " ++ cls ++ c!"::" ++ name ++ c!"(" ++ listText args ++ c!");\n" := rfl

theorem otherwise_fails (cls name : Str) : (Otherwise.fails cls name).text =
    "pybind11::pybind11_fail(\"Tried to call pure virtual function \\\"".toList ++ cls ++ c!"::" ++ name ++ c!"\\\"\");\n" := rfl

theorem return_text : c!"\t\treturn " = c!"\t\t" ++ c!"return " := rfl

theorem fail_text : "\t\tpybind11::pybind11_fail(\"Tried to call pure virtual function \\\"".toList =
    c!"\t\t" ++ "pybind11::pybind11_fail(\"Tried to call pure virtual function \\\"".toList := by decide +kernel

theorem overrideDecl_body (className : Str) (o : Override) (hc : customTrampolineFunction E.cfg (memberFunctionName E o) = []) :
    (overrideDecl E className o).body = indent (dispatchOf E className o).text c!"\t\t" ++ c!"\t\t" ++ (otherwiseOf E o).text := by
  unfold dispatchOf otherwiseOf
  rw [← overrideBody_eq]
  simp only [overrideDecl, overrideBodyText, hc, if_true, overrideFallback, overloadArguments_snd]
  generalize indent _ _ = z
  cases o.method.isPure
  · rw [if_neg (by decide), if_neg (by decide), otherwise_calls, return_text]
    simp only [List.append_assoc]
  · rw [if_pos rfl, if_pos rfl, otherwise_fails, fail_text]
    simp only [List.append_assoc]

theorem override_runs {V : Type} (className : Str) (o : Override) (vs : List V) (hl : vs.length = o.method.params.length) (python : Str → Bool) :
    runs (dispatchOf E className o) (otherwiseOf E o) (argNames o.method.params.length) vs python =
      if python (pythonFunctionName o.method) then .python (pythonFunctionName o.method) (vs.map some)
      else if o.method.isPure then .pure (E.cls o.cls).name (pythonFunctionName o.method)
      else .cxx (E.cls o.cls).name o.method.name (vs.map some) := by
  have hv := lookups (argNames_nodup o.method.params.length) (vs := vs) (by simpa [argNames] using hl)
  unfold runs dispatchOf otherwiseOf
  simp only []
  split
  · rw [hv]
  · cases o.method.isPure
    · simp [hv]
    · simp

theorem firstAlong_inherits {E : Env} {ok : Base → Prop} {has : Nat → Prop} {i k : Nat} (h : FirstAlong E ok has i k) : Inherits E ok i k := by
  induction h with
  | here => exact .refl
  | down _ hb hok hr _ ih => exact .step hb hok hr ih

/-- C95, the part that holds. A callback structure is emitted for class `i`, so the objects of Python classes derived from `i` are objects of
the structure (C94). `m` is a virtual function of `i` or of a base of it that is not private. It is not private itself, can be bound, is
not skipped, and is neither a `const` function next to one that differs only in not being `const`, nor does any function with its signature
be `final`; and the user asked for no trampoline of their own. Then the structure overrides `m`. If C++ calls it with the values `vs`, the
method that Python knows under the Python name of `m` runs, with all values, if the Python class defines one. If it does not, the function
`f` runs that C++ declares for the signature of `m`, again with all values; if `f` has no implementation, an exception is raised that
names it. -/
theorem C95_override_partial (hw : E.Wellfounded) (i c : Nat) (m : Func) (hc : Inherits E notPrivate i c)
    (hm : m ∈ (E.cls c).methods) (mi : Method) (hmi : m.method = some mi) (hpar : mi.parent = c) (hk : mi.kind = .ordinary)
    (hvirt : mi.isVirtual = true) (hacc : mi.access ≠ .priv) (hbind : functionBindable E m = true) (hskip : answer (skipFunction E m) = false)
    (hconst : ¬ (m.isConst = true ∧ ∃ g ∈ (E.cls c).methods, g.access = m.access ∧ g.isConst = false ∧
      functionQualifiedName E m true = functionQualifiedName E g true ++ c!" const"))
    (hfinal : ¬ ∃ k, Inherits E notPrivate i k ∧ ∃ f ∈ (E.cls k).methods, methodFinal f = true ∧
      declarator f.name (f.params.map fun p => stdTy E p.ty) f.isConst = declarator m.name (m.params.map fun p => stdTy E p.ty) m.isConst)
    (hnames : ∀ k, Inherits E notPrivate i k → ∀ f ∈ (E.cls k).methods, f.isCtor = false → f.isDtor = false → f.isConversion = false → ProperName f)
    (hcustom : ∀ k, Inherits E notPrivate i k → ∀ f ∈ (E.cls k).methods, f.name = m.name →
      customTrampolineFunction E.cfg (memberFunctionName E ⟨k, f, none⟩) = []) :
    ∃ ds, callbackText E i = commentFor E (E.cls i).qname (E.cls i).incl (E.cls i).line ++
        structText (callbackName E i) (classQualifiedName E (E.cls i)) (E.cls i).name ds ∧
    ∃ d ∈ ds, declarator d.name d.types d.isConst = declarator m.name (m.params.map fun p => stdTy E p.ty) m.isConst ∧
    ∃ x e, x.cls = classQualifiedName E (E.cls i) ∧ d.body = indent (Dispatch.text x) c!"\t\t" ++ c!"\t\t" ++ e.text ∧
    ∃ k f, Inherits E notPrivate i k ∧ f ∈ (E.cls k).methods ∧ f.isVirtual = true ∧ methodFinal f = false ∧
      declarator f.name (f.params.map fun p => stdTy E p.ty) f.isConst = declarator m.name (m.params.map fun p => stdTy E p.ty) m.isConst ∧
      ∀ (V : Type) (vs : List V) (python : Str → Bool), vs.length = m.params.length →
        runs x e (argNames d.types.length) vs python =
          if python (pythonFunctionName m) then .python (pythonFunctionName m) (vs.map some)
          else if f.isPure then .pure (E.cls k).name (pythonFunctionName m)
          else .cxx (E.cls k).name m.name (vs.map some) := by
  have hvi : m.isVirtual = true := by simp [Func.isVirtual, hmi, hvirt]
  have hct : m.isCtor = false := by
    obtain ⟨_, _, _, _, _, _, _, _, _, _⟩ := mi; simp only at hk; subst hk; simp [Func.isCtor, hmi]
  have hdt : m.isDtor = false := by
    obtain ⟨_, _, _, _, _, _, _, _, _, _⟩ := mi; simp only at hk; subst hk; simp [Func.isDtor, hmi]
  have hac : m.access = mi.access := by simp [Func.access, hmi]
  have hco : isConstOverload E m = false := by
    cases h : isConstOverload E m with
    | false => rfl
    | true =>
      exfalso; apply hconst
      have := (isConstOverload_iff E m mi hmi).1 h
      rw [hpar, ← hac] at this
      exact this
  have hov : overridable E m = true := by
    simp only [overridable, hct, hdt, hvi, hco, hbind, hskip, hac, Bool.not_false, Bool.and_true, bne_iff_ne, ne_eq]
    exact hacc
  have conv : ∀ f, overridable E f = true → f.isCtor = false ∧ f.isDtor = false ∧ f.isConversion = false := by
    intro f h
    simp only [overridable, Bool.and_eq_true, Bool.not_eq_true'] at h
    refine ⟨h.1.1.1.2, h.1.1.2, ?_⟩
    have := h.1.1.1.1.1.2
    cases hcv : f.isConversion with
    | false => rfl
    | true => simp [functionBindable, hcv] at this
  rcases overrides_complete E hw hc hm hov with ⟨o, ho, hkey⟩ | ⟨k, hin, f, hf, hff, hkey⟩
  · obtain ⟨h1, h2, h3, h4⟩ := overrides_source E ho
    have hin := firstAlong_inherits h4
    rw [overrideKey_eq, overrideKey_eq] at hkey
    obtain ⟨hn, hl, hp⟩ := declarator_says E (hnames _ hin _ h1 (conv _ h2).1 (conv _ h2).2.1 (conv _ h2).2.2)
      (hnames _ hc _ hm (conv _ hov).1 (conv _ hov).2.1 (conv _ hov).2.2) hkey
    refine ⟨_, callbackText_eq E i, _, List.mem_map_of_mem ho, hkey, dispatchOf E (classQualifiedName E (E.cls i)) o, otherwiseOf E o, rfl,
      overrideDecl_body E _ o (hcustom _ hin _ h1 hn), o.cls, o.method, hin, h1, ?_, h3, hkey, ?_⟩
    · simp only [overridable, Bool.and_eq_true] at h2; exact h2.1.2
    · intro V vs python hvs
      have := override_runs E (classQualifiedName E (E.cls i)) o vs (hvs.trans hl.symm) python
      rw [hp, hn] at this
      rw [show (overrideDecl E (classQualifiedName E (E.cls i)) o).types.length = o.method.params.length from by simp [overrideDecl]]
      exact this
  · rw [overrideKey_eq, overrideKey_eq] at hkey
    exact absurd ⟨k, hin, f, hf, hff, hkey⟩ hfinal

/-- A case of `C95_override_partial`: C++ calls the pure `f(int)` of `B` for an object of a Python class derived from `D`. -/
example : ∃ ds, callbackText abstractExample 0 = commentFor abstractExample (abstractExample.cls 0).qname (abstractExample.cls 0).incl
        (abstractExample.cls 0).line ++
        structText (callbackName abstractExample 0) (classQualifiedName abstractExample (abstractExample.cls 0)) (abstractExample.cls 0).name ds ∧
    ∃ d ∈ ds, declarator d.name d.types d.isConst = c!"f(int a0)" ∧ ∃ x e, d.body = indent (Dispatch.text x) c!"\t\t" ++ c!"\t\t" ++ e.text ∧
      runs x e (argNames d.types.length) [7] (fun n => n == c!"f") = .python c!"f" [some 7] := by
  have h := C95_override_partial abstractExample abstractExample_wellfounded 0 1
    (virtualMethod 1 c!"B" c!"f" (.basic 0) [⟨c!"x", .basic 0, false⟩] false true false .pub)
    (.step (b := publicBase 1) (by simp [abstractExample, hierarchy, exampleClass]) (by simp [notPrivate, publicBase]) rfl .refl)
    (by simp [abstractExample, hierarchy, exampleClass, Record.methods]) _ rfl rfl rfl rfl (by simp) (by decide +kernel) (by decide +kernel)
    (by simp [virtualMethod, Func.isConst]) ?_ ?_ ?_
  · obtain ⟨ds, h1, d, hd, h2, x, e, h3, h4, k, f, _, _, _, _, _, h5⟩ := h
    refine ⟨ds, h1, d, hd, h2.trans (by decide +kernel), x, e, h4, ?_⟩
    rw [h5 Nat [7] _ (by simp [virtualMethod])]
    rfl
  · rintro ⟨c, _, f, hf, hff, _⟩
    revert hff
    simp only [abstractExample, hierarchy] at hf
    match c with
    | 0 => simp [exampleClass, Record.methods] at hf; subst hf; simp [methodFinal, virtualMethod]
    | 1 =>
      simp [exampleClass, Record.methods] at hf
      rcases hf with rfl | rfl <;> simp [methodFinal, virtualMethod]
    | _ + 2 => simp [exampleRecord, Record.methods] at hf
  · intro k _ f hf _ _ _
    have hn : f.name = c!"f" ∨ f.name = c!"g" ∨ f.name = c!"h" := by
      simp only [abstractExample, hierarchy] at hf
      match k with
      | 0 => simp [exampleClass, Record.methods] at hf; subst hf; simp [virtualMethod]
      | 1 =>
        simp [exampleClass, Record.methods] at hf
        rcases hf with rfl | rfl <;> simp [virtualMethod]
      | _ + 2 => simp [exampleRecord, Record.methods] at hf
    have ho : f.isOperator = false := by
      simp only [abstractExample, hierarchy] at hf
      match k with
      | 0 => simp [exampleClass, Record.methods] at hf; subst hf; simp [virtualMethod]
      | 1 =>
        simp [exampleClass, Record.methods] at hf
        rcases hf with rfl | rfl <;> simp [virtualMethod]
      | _ + 2 => simp [exampleRecord, Record.methods] at hf
    unfold ProperName IsIdentifier
    rw [if_neg (by simp [ho])]
    rcases hn with h | h | h <;> rw [h] <;> exact ⟨⟨by decide, by decide, by simp⟩, by decide⟩
  · intro k _ f _ _
    rfl

/-- `struct B { virtual int f(); virtual int f() const; };` -/
def constPairExample : Env := hierarchy
  [exampleClass c!"B" false [] [virtualMethod 0 c!"B" c!"f" (.basic 0) [] false false false .pub,
     virtualMethod 0 c!"B" c!"f" (.basic 0) [] true false false .pub]]

/-- C95 fails for a `const` function next to one that is not `const`: the callback structure of `B` does not override `f() const`, although
it is public, virtual, bound and not final. A Python method `f` is not called if C++ code calls `f` of a `const` object. -/
theorem C95_const_false : ∃ E : Env, E.Wellfounded ∧ ∃ i m, trampoline E i = true ∧ m ∈ (E.cls i).methods ∧ m.isVirtual = true ∧ m.access = .pub ∧
    methodFinal m = false ∧ functionBindable E m = true ∧ answer (skipFunction E m) = false ∧
    (overrides E i).all (fun o => declarator o.method.name (o.method.params.map fun p => stdTy E p.ty) o.method.isConst !=
      declarator m.name (m.params.map fun p => stdTy E p.ty) m.isConst) = true := by
  refine ⟨constPairExample, ?_, 0, virtualMethod 0 c!"B" c!"f" (.basic 0) [] true false false .pub, by decide +kernel,
    by simp [constPairExample, hierarchy, exampleClass, Record.methods], rfl, rfl, rfl, by decide +kernel, by decide +kernel, by decide +kernel⟩
  apply hierarchy_wellfounded
  · decide +kernel
  · simp [exampleClass]
  · intro i h b hb j hj
    match i, h with
    | 0, _ => simp [exampleClass] at hb

/-- `struct B { virtual int f(); private: virtual int g(); };` -/
def privateVirtualExample : Env := hierarchy
  [exampleClass c!"B" false [] [virtualMethod 0 c!"B" c!"f" (.basic 0) [] false false false .pub,
     virtualMethod 0 c!"B" c!"g" (.basic 0) [] false false false .priv]]

/-- C95 fails for a private virtual function, which a C++ class derived from `B` can override: the callback structure of `B` does not, and
a Python method `g` is not called if `B` calls `g`. -/
theorem C95_private_false : ∃ E : Env, E.Wellfounded ∧ ∃ i m, trampoline E i = true ∧ m ∈ (E.cls i).methods ∧ m.isVirtual = true ∧
    methodFinal m = false ∧ functionBindable E m = true ∧ answer (skipFunction E m) = false ∧
    (overrides E i).all (fun o => declarator o.method.name (o.method.params.map fun p => stdTy E p.ty) o.method.isConst !=
      declarator m.name (m.params.map fun p => stdTy E p.ty) m.isConst) = true := by
  refine ⟨privateVirtualExample, ?_, 0, virtualMethod 0 c!"B" c!"g" (.basic 0) [] false false false .priv, by decide +kernel,
    by simp [privateVirtualExample, hierarchy, exampleClass, Record.methods], rfl, rfl, by decide +kernel, by decide +kernel, by decide +kernel⟩
  apply hierarchy_wellfounded
  · decide +kernel
  · simp [exampleClass]
  · intro i h b hb j hj
    match i, h with
    | 0, _ => simp [exampleClass] at hb

end Binder
