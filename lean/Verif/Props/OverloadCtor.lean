import Verif.Props.Overload

/-!
# C102 for constructors
-/

namespace Binder

open Cxx Spec

variable (E : Env)

theorem selects_none {conv : Arg → Ty → Prop} {args : List Arg} {scope : List Func} {t : Func} (hc : ∀ G ∈ scope, G.isConst = false) :
    Selects conv ⟨none, args⟩ scope t ↔ Selects conv ⟨some false, args⟩ scope t := by
  have hv : ∀ G, Viable conv ⟨none, args⟩ G ↔ Viable conv ⟨some false, args⟩ G := fun G =>
    ⟨fun h => ⟨h.number, fun e => by simp at e, h.args⟩, fun h => ⟨h.number, fun e => by simp at e, h.args⟩⟩
  have hb : ∀ G H, G ∈ scope → H ∈ scope → (Better ⟨none, args⟩ G H ↔ Better ⟨some false, args⟩ G H) := by
    intro G H hG hH
    have h1 : ∀ A B, ¬ BetterObject ⟨none, args⟩ A B := fun A B h => by simp [BetterObject] at h
    have h2 : ∀ A B, B ∈ scope → ¬ BetterObject ⟨some false, args⟩ A B := fun A B hB h => by
      have := h.2.2.2.2; rw [hc B hB] at this; cases this
    constructor
    · intro h
      exact ⟨⟨h.never.1, h2 _ _ hG⟩, .inl (h.once.resolve_right (h1 _ _))⟩
    · intro h
      exact ⟨⟨h.never.1, h1 _ _⟩, .inl (h.once.resolve_right (h2 _ _ hH))⟩
  constructor
  · intro h
    exact ⟨h.found, (hv _).1 h.viable, fun G hG hne hvG => (hb _ _ h.found hG).1 (h.best G hG hne ((hv G).2 hvG))⟩
  · intro h
    exact ⟨h.found, (hv _).2 h.viable, fun G hG hne hvG => (hb _ _ h.found hG).2 (h.best G hG hne ((hv G).1 hvG))⟩

/-- C102 for constructors, partial. Every statement for a constructor that uses lambdas, because it leaves out arguments, creates objects
with variables of the types of the first `k` parameters. Whatever other constructors there are: this reaches the bound constructor
exactly if its first `k` parameters tell it apart from each of the others, and it can pass its arguments exactly if the classes among
them that the constructor takes by value can be copied. -/
theorem C102_constructors_partial (i : Nat) (t : Func) (h : Item.ctor t ∈ ctorItems E i) (d : Nat) (hd : FirstDefault t.params d)
    (hdef : DefaultsLast t.params) (hf : ¬ ∃ p ∈ t.params, IsFunction p.ty.canon) :
    ∃ (comment : Str) (inits : List Init), itemText E i (.ctor t) = (inits.map fun x => comment ++ x.text ++ c!"\n").flatten ∧
      inits.map Init.arity = List.range' d (t.params.length + 1 - d) ∧
      ∀ x ∈ inits, (x.arity < t.params.length ∨ t.isVariadic = true) →
        ∃ (ps : List (Str × Str)) (ks : Option (List Str)) (D : List Ty),
          x = .viaLambda ps (argNames x.arity) (createdClasses E i) ks ∧ ps.length = x.arity ∧ D.length = x.arity ∧
          (∀ j p, t.params[j]? = some p → j < x.arity → ∃ suffix u, ps[j]? = some (stdTy E p.ty ++ suffix, c!"a" ++ Nat.toDigits 10 j) ∧
            declared p.ty suffix = some u ∧ D[j]? = some u) ∧
          (∀ (conv : Arg → Ty → Prop) (scope : List Func), t ∈ scope → (∀ G ∈ scope, G.isConst = false) →
            (Selects conv ⟨none, D.map variableOf⟩ scope t ↔ ∀ G ∈ scope, G ≠ t → TellsApart t G x.arity)) ∧
          ∀ copyable : Nat → Prop, Passes copyable ⟨none, D.map variableOf⟩ t ↔
            ∀ p ∈ t.params.take x.arity, ∀ r, p.ty.canon.unqual = .record r → copyable r := by
  have hb : functionBindable E t = true := by
    rcases ((C48_constructors_partial E i _).1 h).2.2 with ⟨h, -⟩ | ⟨t', h, -, -, -, -, h', -⟩ | ⟨t', h, -, -, -, h'⟩
    · cases h
    · unfold ctorItem at h; split at h <;> (try split at h) <;> cases h; exact h'
    · unfold ctorItem at h; split at h <;> (try split at h) <;> cases h; exact h'
  obtain ⟨comment, inits, htext, -, -, har, hall⟩ := C52_constructors E i t h d hd
  refine ⟨comment, inits, htext, har, fun x hx hlam => ?_⟩
  have hk : d ≤ x.arity ∧ x.arity ≤ t.params.length := by
    have : x.arity ∈ inits.map Init.arity := List.mem_map_of_mem hx
    rw [har, List.mem_range'_1] at this
    have := hd.1
    omega
  rcases hall x hx with ⟨h1, h2, -⟩ | ⟨-, ks, hxe⟩
  · rcases hlam with h | h
    · omega
    · rw [h2] at h; cases h
  have hr := bindable_no_rvalue E hb
  obtain ⟨D, hlen, htypes, hvar⟩ := lambdaTypes E t x.arity hk.2 hr hf
  refine ⟨_, ks, D, hxe, by simp; omega, hlen, htypes, fun conv scope ht hc => ?_, fun copyable => ?_⟩
  · have hcall : (⟨some false, D.map variableOf⟩ : Call) = ⟨some t.isConst, D.map variableOf⟩ := by rw [hc t ht]
    rw [selects_none hc, hcall, hvar]
    have hdrop := left_out_ctor hdef (k := x.arity) (by rw [← firstDefault_unique _ _ hd]; exact hk.1)
    have := selects_iff t x.arity hk.2 hdrop hr conv scope ht
    by_cases hi : t.isInstance = true
    · simpa [ownCall, hi] using this
    · rw [← this, hc t ht, ← selects_none hc]
      simp [ownCall, hi]
  · have := passes_iff (fun t => argOf t.canon) t x.arity hk.2 copyable
    rw [hvar]
    exact this

/-- The hypotheses of `C102_constructors_partial` are met by `A(int x, int y = 1)`. -/
example : Item.ctor twoArguments ∈ ctorItems (classWith [.method twoArguments]) 0 ∧ FirstDefault twoArguments.params 1 ∧
    DefaultsLast twoArguments.params ∧ ¬ ∃ p ∈ twoArguments.params, IsFunction p.ty.canon := by
  refine ⟨(C48_constructors_partial _ _ _).2 ⟨.inl rfl, rfl, .inr (.inl ⟨twoArguments, by decide +kernel, rfl, List.mem_cons_self, rfl, rfl,
    by decide +kernel, rfl⟩)⟩, ⟨by decide, ?_, ?_⟩, by simp [DefaultsLast, twoArguments, exampleCtor, exampleMethod], ?_⟩
  · intro i h hi
    have : i = 0 := by omega
    subst this; rfl
  · intro h; rfl
  · rintro ⟨p, hp, hf⟩
    simp [twoArguments, exampleCtor, exampleMethod] at hp
    rcases hp with rfl | rfl <;> simp [Ty.canon] at hf <;> cases hf

end Binder
