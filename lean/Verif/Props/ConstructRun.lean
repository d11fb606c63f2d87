import Verif.Props.CallRun
import Verif.Spec.Construct

/-!
# C94: objects made from Python
-/

namespace Binder

open Cxx Spec

variable (E : Env)

/-! ## The statements of one class -/

/-- The constructor statements for a constructor. -/
def newsOf (i : Nat) : Item → List New
  | .implicitDefault => [⟨.viaLambda [] [] (createdClasses E i) none, []⟩]
  | .defaultCtor _ => [⟨.viaLambda [] [] (createdClasses E i) none, []⟩]
  | .copyCtor t =>
    let copy := fun n : Str => (⟨.viaLambda [(n ++ constBit t ++ c!" &", c!"o")] [c!"o"] [n] none, [.object n]⟩ : New)
    if trampoline E i then
      if (E.cls i).isAbstract then [⟨.direct [callbackName E i ++ constBit t ++ c!" &"] [], [.object (callbackName E i)]⟩]
      else copy (callbackName E i) :: (if t.access == .pub then [copy (classQualifiedName E (E.cls i))] else [])
    else [copy (classQualifiedName E (E.cls i))]
  | .ctor t => (arities (firstDefault t.params) t.params.length).map fun k => ⟨ctorInit E i t k, (t.params.take k).map .param⟩
  | _ => []

/-- The callback structure of the class. -/
def callbackOf (i : Nat) : Option Str := if trampoline E i then some (callbackName E i) else none

theorem constBit_cases (t : Func) : constBit t = [] ∨ constBit t = c!" const" := by
  unfold constBit; split
  · exact .inr rfl
  · exact .inl rfl

theorem news_takes {i : Nat} {x : Item} {y : New} (hy : y ∈ newsOf E i x) : TakesFor x y := by
  cases x with
  | implicitDefault => simp only [newsOf, List.mem_singleton] at hy; subst hy; rfl
  | defaultCtor t => simp only [newsOf, List.mem_singleton] at hy; subst hy; rfl
  | ctor t =>
    simp only [newsOf, List.mem_map] at hy
    obtain ⟨k, hk, rfl⟩ := hy
    simp only [arities, List.mem_range'_1] at hk
    have := firstDefault_le t.params
    simp only [TakesFor]
    rw [ctorInit_arity E i t k (by omega)]
  | copyCtor t =>
    have hc := constBit_cases t
    have hl : ∀ n : Str, TakesFor (.copyCtor t) ⟨.viaLambda [(n ++ constBit t ++ c!" &", c!"o")] [c!"o"] [n] none, [.object n]⟩ :=
      fun n => ⟨n, constBit t, rfl, hc, .inr rfl⟩
    simp only [newsOf] at hy
    split at hy
    · split at hy
      · rw [List.mem_singleton] at hy; subst hy; exact ⟨_, constBit t, rfl, hc, .inl rfl⟩
      · rcases List.mem_cons.1 hy with e | hy
        · rw [e]; exact hl _
        · split at hy
          · rw [List.mem_singleton] at hy; subst hy; exact hl _
          · cases hy
    · rw [List.mem_singleton] at hy; subst hy; exact hl _
  | _ => cases hy

theorem signature_gap (F : Func) (b : Bool) : Gap (signatureComment E F b) := by
  obtain ⟨x, hx⟩ := fileLine_eq E F.incl F.line
  refine .inr (.inr (.inr (.inr (.inl ⟨c!"function-signature: " ++ functionQualifiedName E F b ++ c!"(" ++ functionArguments E F ++ c!")" ++ x, ?_⟩))))
  unfold signatureComment
  rw [hx]
  simp

theorem statements_if {c : Bool} {g : Str} {l : List New} {t : Str} (hg : Gap g) (h : Statements l t) : Statements l ((if c then g else []) ++ t) := by
  cases c
  · simpa using h
  · simpa using Statements.gap hg h

theorem statements_append {a b : List New} {s t : Str} (h : Statements a s) (h' : Statements b t) : Statements (a ++ b) (s ++ t) := by
  induction h with
  | nil => exact h'
  | gap hg _ ih => rw [List.append_assoc]; exact .gap hg ih
  | cons hy _ ih => rw [List.append_assoc]; exact .cons hy ih

theorem statements_one {y : New} {s : Str} (h : y.init.Is s) : Statements [y] s := by
  have := Statements.cons h .nil
  rwa [List.append_nil] at this

theorem news_text {i : Nat} {x : Item} (hx : x ∈ ctorItems E i) : Statements (newsOf E i x) (itemText E i x) := by
  have ha := ctor_callback E hx
  have hdef : ∀ o, Statements [⟨.viaLambda [] [] (createdClasses E i) none, []⟩] (defaultCtorText E i o) := by
    intro o
    unfold defaultCtorText
    apply statements_if
    · cases o with
      | some F => exact signature_gap E F true
      | none => exact .inr (.inr (.inr (.inr (.inl ⟨c!"function-signature: " ++ classQualifiedName E (E.cls i) ++ c!"()", by simp⟩))))
    · apply statements_one
      refine .inr ⟨rfl, ?_⟩
      by_cases hab : (E.cls i).isAbstract = true
      · have ht := ha hab
        simp [hab, ht, createdClasses, trampolineName, newLambda, newText, listText, List.intercalate]
      · by_cases ht : trampoline E i = true
        · simp [hab, ht, createdClasses, trampolineName, newLambda, newText, listText, List.intercalate]
        · simp [hab, ht, createdClasses, newLambda, newText, listText, List.intercalate]
  have hcopy : ∀ (t : Func) (n : Str), Init.Is (c!"\tcl.def( pybind11::init( " ++ newLambda (n ++ constBit t ++ c!" &o") c!"o" n ++ c!" ) );\n")
      (.viaLambda [(n ++ constBit t ++ c!" &", c!"o")] [c!"o"] [n] none) := by
    intro t n
    exact .inr ⟨rfl, by simp [newLambda, newText, listText, List.intercalate]⟩
  cases x with
  | implicitDefault => exact hdef none
  | defaultCtor t => exact hdef (some t)
  | ctor t =>
    simp only [itemText, ctorsText, newsOf]
    have : ∀ l : List Nat, (∀ k ∈ l, k ≤ t.params.length) →
        Statements (l.map fun k => ⟨ctorInit E i t k, (t.params.take k).map .param⟩) (l.flatMap fun k => ctorText E i t k ++ c!"\n") := by
      intro l
      induction l with
      | nil => intro _; exact .nil
      | cons k l ih =>
        intro hl
        rw [List.flatMap_cons, ctorText_eq E i t k (hl k List.mem_cons_self) ha, List.append_assoc, List.append_assoc, List.map_cons]
        apply statements_if (signature_gap E t true)
        exact .cons (.inl rfl) (.gap (.inl rfl) (ih fun k hk => hl k (List.mem_cons_of_mem _ hk)))
    apply this
    intro k hk
    simp only [arities, List.mem_range'_1] at hk
    have := firstDefault_le t.params
    omega
  | copyCtor t =>
    simp only [itemText, copyCtorText, newsOf]
    apply statements_if (signature_gap E t true)
    split
    · rename_i ht
      split
      · apply statements_one
        refine .inr ⟨rfl, ?_⟩
        simp [trampolineName, ht, listText, List.intercalate]
      · rw [trampolineName, if_pos ht]
        refine .cons (hcopy t _) ?_
        split
        · exact statements_one (hcopy t _)
        · exact .nil
    · exact statements_one (hcopy t _)
  | _ => rcases ctorItems_kind E hx with h | ⟨t, h | h | h⟩ <;> cases h

/-! ## The choice among the statements -/

theorem tries_map {α β V : Type} (f : α → β) (can : Bool → β → V → Bool) (convert : Bool) (names : List Str) (l : List α) (c : PyCall V) :
    Overload.tries can convert ⟨names, l.map f⟩ c = Overload.tries (fun b a v => can b (f a) v) convert ⟨names, l⟩ c := by
  have : Overload.arguments ⟨names, l.map f⟩ c = Overload.arguments ⟨names, l⟩ c := by
    unfold Overload.arguments; simp only [List.length_map]
  unfold Overload.tries
  rw [this]
  split
  · rfl
  · rename_i vs _
    have h : ∀ (l : List α) (vs : List V), ((l.map f).zip vs).all (fun x => can convert x.1 x.2) = (l.zip vs).all fun x => can convert (f x.1) x.2 := by
      intro l
      induction l with
      | nil => intro vs; rfl
      | cons a l ih => intro vs; cases vs with
        | nil => rfl
        | cons v vs => simp [ih]
    show (if ((l.map f).zip vs).all (fun x => can convert x.1 x.2) = true then _ else _) = _
    rw [h]

theorem dispatch_prefers {β α V : Type} {can : Bool → α → V → Bool} {os : List (β × Overload α)} {c : PyCall V} {b : β} {ws : List V}
    (h : dispatch can os c = some (b, ws)) : ∃ o, (b, o) ∈ os ∧ (∃ convert, o.tries can convert c = some ws) ∧
      ((∃ z ∈ o.params.zip ws, can false z.1 z.2 = false) → ∀ x ∈ os, x.2.tries can false c = none) := by
  obtain ⟨o, convert, h1, h2, h3⟩ := dispatch_sound h
  refine ⟨o, h1, ⟨convert, h2⟩, ?_⟩
  rintro ⟨z, hz, hc⟩ x hx
  have hargs : o.arguments c = some ws ∧ ∀ z ∈ o.params.zip ws, can convert z.1 z.2 = true := by
    unfold Overload.tries at h2
    split at h2
    · cases h2
    · rename_i vs hvs
      split at h2
      · rename_i hall
        cases h2
        exact ⟨hvs, fun z hz => List.all_eq_true.1 hall z hz⟩
      · cases h2
  cases convert with
  | false => rw [hargs.2 z hz] at hc; cases hc
  | true =>
    by_cases hl : 1 < os.length
    · exact h3 rfl hl x hx
    · have : x = (b, o) := by
        match os, hl, h1, hx with
        | [a], _, h1, hx => rw [List.mem_singleton] at h1 hx; rw [hx, h1]
        | a :: a' :: l, hl, _, _ => simp at hl
      rw [this]
      show o.tries can false c = none
      unfold Overload.tries
      rw [hargs.1]
      simp only
      rw [if_neg]
      intro hall
      rw [List.all_eq_true.1 hall z hz] at hc; cases hc

/-- The call can be meant for the constructor: it suits the constructor; or it has no arguments, for the constructor without parameters; or it
has one object, to copy it. -/
def Accepts (i : Nat) {V : Type} (can : Takes → V → Bool) (c : PyCall V) : Item → Prop
  | .ctor t => ∃ vs, Constructs E i t c vs ∧ ∀ z ∈ t.params.zip vs, can (.param z.1) z.2 = true
  | .copyCtor _ => ∃ v, c = ⟨[v], []⟩ ∧ ∃ n ∈ createdClasses E i, can (.object n) v = true
  | .implicitDefault => c = ⟨[], []⟩
  | .defaultCtor _ => c = ⟨[], []⟩
  | _ => False

/-- What the reached statement does with the call. -/
structure Reaches (i : Nat) {V : Type} (can : Takes → V → Bool) (c : PyCall V) (x : Item) (y : New) (vs : List V) : Prop where
  /-- The constructor is a constructor of the class. -/
  item : x ∈ ctorItems E i
  /-- It gets exactly the arguments of the call, and only default arguments are left out. -/
  ctor : ∀ t, x = .ctor t → Gives (t.params.map (·.name)) c vs ∧ (DefaultsLast t.params → ∀ p ∈ t.params.drop vs.length, p.hasDefault = true)
  default : (x = .implicitDefault ∨ ∃ t, x = .defaultCtor t) → c = ⟨[], []⟩ ∧ vs = []
  /-- Copies are made of one object, of the class itself or of its callback structure. -/
  copy : ∀ t, x = .copyCtor t → ∃ v, c = ⟨[v], []⟩ ∧ vs = [v] ∧ ∃ n ∈ createdClasses E i, y.takes = [.object n] ∧
    ∀ derived, (callbackOf E i = none ∨ callbackOf E i = some n ∨ derived = false) →
      Makes (classQualifiedName E (E.cls i)) (callbackOf E i) (E.cls i).isAbstract derived y.init vs n vs
  /-- The arguments can be converted. -/
  types : ∀ z ∈ y.takes.zip vs, can z.1 z.2 = true
  /-- Objects of the right class are made, with these arguments. -/
  makes : (∀ t, x ≠ .copyCtor t) → ∀ derived,
    Makes (classQualifiedName E (E.cls i)) (callbackOf E i) (E.cls i).isAbstract derived y.init vs
      (objectClass (classQualifiedName E (E.cls i)) (callbackOf E i) (E.cls i).isAbstract derived) vs

theorem created_makes {i : Nat} (ha : (E.cls i).isAbstract = true → trampoline E i = true) {V : Type} {params : List (Str × Str)} {args : List Str} {ks : Option (List Str)}
    {vs ws : List V} (h1 : params.length = vs.length) (h2 : args.map (((params.map (·.2)).zip vs).lookup ·) = ws.map some) (derived : Bool) :
    Makes (classQualifiedName E (E.cls i)) (callbackOf E i) (E.cls i).isAbstract derived (.viaLambda params args (createdClasses E i) ks) vs
      (objectClass (classQualifiedName E (E.cls i)) (callbackOf E i) (E.cls i).isAbstract derived) ws := by
  unfold createdClasses objectClass callbackOf
  by_cases hab : (E.cls i).isAbstract = true
  · have ht := ha hab
    simp only [hab, ht, if_true, Bool.true_or]
    exact .lambda h1 h2 (.inr (.inr rfl))
  · rw [Bool.not_eq_true] at hab
    by_cases ht : trampoline E i = true
    · simp only [hab, ht, if_true, Bool.false_or, Bool.false_eq_true, if_false]
      exact .lambdas h1 h2
    · rw [Bool.not_eq_true] at ht
      simp only [hab, ht, Bool.false_eq_true, if_false]
      exact .lambda h1 h2 (.inl rfl)

theorem direct_makes {i : Nat} {V : Type} {types ks : List Str} {vs : List V} (h : types.length = vs.length) (derived : Bool) :
    Makes (classQualifiedName E (E.cls i)) (callbackOf E i) (E.cls i).isAbstract derived (.direct types ks) vs
      (objectClass (classQualifiedName E (E.cls i)) (callbackOf E i) (E.cls i).isAbstract derived) vs := by
  unfold objectClass
  cases hc : callbackOf E i with
  | none => exact .itself h (.inl rfl)
  | some n =>
    dsimp only
    cases hab : (E.cls i).isAbstract <;> cases derived <;> simp
    · exact .itself h (.inr ⟨rfl, rfl⟩)
    · exact .callback h rfl (.inr rfl)
    · exact .callback h rfl (.inl rfl)
    · exact .callback h rfl (.inl rfl)

theorem copy_public {i : Nat} {t : Func} (h : Item.copyCtor t ∈ ctorItems E i) : t.access = .pub := by
  rcases ((C48_constructors_partial E i _).1 h).2.2 with ⟨h, _⟩ | ⟨t', e, h⟩ | ⟨t', e, h⟩
  · cases h
  · rcases ctorItem_kind t' with e' | e' | e' <;> rw [e'] at e <;> cases e
    exact h.2.2.1
  · have : ctorItem t' ≠ .copyCtor t := by
      unfold ctorItem
      rw [h.2.2.1]
      simp only [Bool.false_eq_true, if_false]
      split <;> simp
    exact absurd e.symm this

/-- The statements for a copy constructor. -/
theorem news_copy {i : Nat} {t : Func} (hx : Item.copyCtor t ∈ ctorItems E i) (y : New) : y ∈ newsOf E i (.copyCtor t) ↔
    ∃ n ∈ createdClasses E i, y.takes = [.object n] ∧ y.init = if (E.cls i).isAbstract then .direct [n ++ constBit t ++ c!" &"] []
      else .viaLambda [(n ++ constBit t ++ c!" &", c!"o")] [c!"o"] [n] none := by
  have hp : (t.access == .pub) = true := by rw [copy_public E hx]; rfl
  have ha := ctor_callback E hx
  obtain ⟨init, takes⟩ := y
  unfold createdClasses
  simp only [newsOf, hp, if_true]
  by_cases hab : (E.cls i).isAbstract = true
  · rw [ha hab, hab]; simp [and_comm]
  · rw [Bool.not_eq_true] at hab
    by_cases ht : trampoline E i = true
    · rw [hab, ht]
      simp only [Bool.false_eq_true, if_false, if_true, List.mem_cons, New.mk.injEq, List.not_mem_nil, or_false]
      constructor
      · rintro (⟨rfl, rfl⟩ | ⟨rfl, rfl⟩)
        · exact ⟨_, .inr rfl, rfl, rfl⟩
        · exact ⟨_, .inl rfl, rfl, rfl⟩
      · rintro ⟨n, rfl | rfl, rfl, rfl⟩
        · exact .inr ⟨rfl, rfl⟩
        · exact .inl ⟨rfl, rfl⟩
    · rw [Bool.not_eq_true] at ht
      rw [hab, ht]; simp [and_comm]

theorem one_argument {α V : Type} {can : Bool → α → V → Bool} {convert : Bool} {a : α} {c : PyCall V} {ws : List V} :
    Overload.tries can convert ⟨[], [a]⟩ c = some ws ↔ ∃ v, c = ⟨[v], []⟩ ∧ ws = [v] ∧ can convert a v = true := by
  unfold Overload.tries
  constructor
  · intro h
    split at h
    · cases h
    · rename_i vs hvs
      obtain ⟨h1, h2, rfl⟩ := arguments_positional.1 hvs
      split at h
      · rename_i hall
        cases h
        obtain ⟨pos, kw⟩ := c
        dsimp only at *
        match pos, h1 with
        | [v], _ => exact ⟨v, by rw [h2], rfl, by simpa using hall⟩
      · cases h
  · rintro ⟨v, rfl, rfl, h⟩
    have : Overload.arguments ⟨[], [a]⟩ (⟨[v], []⟩ : PyCall V) = some [v] := arguments_positional.2 ⟨rfl, rfl, rfl⟩
    rw [this]
    simp [h]

theorem no_argument {α V : Type} {can : Bool → α → V → Bool} {convert : Bool} {c : PyCall V} {ws : List V} :
    Overload.tries can convert ⟨[], []⟩ c = some ws ↔ c = ⟨[], []⟩ ∧ ws = [] := by
  unfold Overload.tries
  constructor
  · intro h
    split at h
    · cases h
    · rename_i vs hvs
      obtain ⟨h1, h2, rfl⟩ := arguments_positional.1 hvs
      obtain ⟨pos, kw⟩ := c
      dsimp only at *
      obtain rfl : pos = [] := List.length_eq_zero_iff.1 (by simpa using h1)
      simp at h
      exact ⟨by rw [h2], h⟩
  · rintro ⟨rfl, rfl⟩
    have : Overload.arguments ⟨[], ([] : List α)⟩ (⟨[], []⟩ : PyCall V) = some [] := arguments_positional.2 ⟨rfl, rfl, rfl⟩
    rw [this]
    simp

/-- A call that is meant for a constructor is taken by one of its statements. -/
theorem accepts_tries {i : Nat} {V : Type} {can : Bool → Takes → V → Bool} {convert : Bool} {c : PyCall V} (hs : c.Sane) {x : Item} (hx : x ∈ ctorItems E i)
    (h : Accepts E i (can convert) c x) : ∃ y ∈ newsOf E i x, ∃ vs, y.overload.tries can convert c = some vs := by
  cases x with
  | implicitDefault => exact ⟨_, List.mem_singleton.2 rfl, [], no_argument.2 ⟨h, rfl⟩⟩
  | defaultCtor t => exact ⟨_, List.mem_singleton.2 rfl, [], no_argument.2 ⟨h, rfl⟩⟩
  | ctor t =>
    obtain ⟨vs, h1, h2⟩ := h
    refine ⟨⟨ctorInit E i t vs.length, (t.params.take vs.length).map .param⟩, ?_, vs, ?_⟩
    · refine List.mem_map.2 ⟨vs.length, ?_, rfl⟩
      have e1 := h1.suits.enough_ctor
      have e2 : vs.length ≤ t.params.length := by simpa using h1.suits.gives.1
      simp only [arities, List.mem_range'_1]; omega
    · have := init_takes E (can := fun b p v => can b (.param p) v) (convert := convert) hs (ctor_callback E hx) h1 h2
      unfold Spec.Init.overload at this
      rw [ctorInit_arity E i t _ (by simpa using h1.suits.gives.1)] at this
      unfold New.overload
      dsimp only
      rw [tries_map]
      exact this
  | copyCtor t =>
    obtain ⟨v, rfl, n, hn, h⟩ := h
    have hy := (news_copy E hx ⟨if (E.cls i).isAbstract then .direct [n ++ constBit t ++ c!" &"] []
      else .viaLambda [(n ++ constBit t ++ c!" &", c!"o")] [c!"o"] [n] none, [.object n]⟩).2 ⟨n, hn, rfl, rfl⟩
    refine ⟨_, hy, [v], ?_⟩
    have : (if (E.cls i).isAbstract then Init.direct [n ++ constBit t ++ c!" &"] []
      else Init.viaLambda [(n ++ constBit t ++ c!" &", c!"o")] [c!"o"] [n] none).keywords = [] := by split <;> rfl
    unfold New.overload
    dsimp only
    rw [this]
    exact one_argument.2 ⟨v, rfl, rfl, h⟩
  | _ => exact h.elim

/-- What a statement that takes a call does with it. -/
theorem tries_reaches {i : Nat} {V : Type} {can : Bool → Takes → V → Bool} {convert : Bool} {c : PyCall V} (hs : c.Sane)
    (hmono : ∀ p v, can false p v = true → can true p v = true) {x : Item} (hx : x ∈ ctorItems E i)
    {y : New} (hy : y ∈ newsOf E i x) {vs : List V} (h : y.overload.tries can convert c = some vs) : Reaches E i (can true) c x y vs := by
  have hm : ∀ p v, can convert p v = true → can true p v = true := by cases convert; exact hmono; exact fun _ _ h => h
  have ha := ctor_callback E hx
  have htypes : ∀ z ∈ y.takes.zip vs, can true z.1 z.2 = true := by
    unfold Overload.tries at h
    split at h
    · cases h
    · split at h
      · rename_i hall
        cases h
        exact fun z hz => hm _ _ (List.all_eq_true.1 hall z hz)
      · cases h
  have hdef : y = ⟨.viaLambda [] [] (createdClasses E i) none, []⟩ → c = ⟨[], []⟩ ∧ vs = [] := by
    rintro rfl; exact no_argument.1 h
  have hmk : y = ⟨.viaLambda [] [] (createdClasses E i) none, []⟩ → ∀ derived, Makes (classQualifiedName E (E.cls i)) (callbackOf E i) (E.cls i).isAbstract derived y.init vs
      (objectClass (classQualifiedName E (E.cls i)) (callbackOf E i) (E.cls i).isAbstract derived) vs := by
    intro e derived
    rw [(hdef e).2, e]
    exact created_makes E ha (V := V) (params := []) (args := []) (vs := []) (ws := []) rfl rfl derived
  cases x with
  | implicitDefault =>
    have e := List.mem_singleton.1 hy
    exact ⟨hx, fun _ h => (by cases h), fun _ => hdef e, fun _ h => (by cases h), htypes, fun _ => hmk e⟩
  | defaultCtor t =>
    have e := List.mem_singleton.1 hy
    exact ⟨hx, fun _ h => (by cases h), fun _ => hdef e, fun _ h => (by cases h), htypes, fun _ => hmk e⟩
  | ctor t =>
    obtain ⟨k, hk, e⟩ := List.mem_map.1 hy
    simp only [arities, List.mem_range'_1] at hk
    have hl := firstDefault_le t.params
    have hk' : k ≤ t.params.length := by omega
    rw [← e] at h
    unfold New.overload at h
    dsimp only at h
    rw [tries_map] at h
    have h' : ((ctorInit E i t k).overload t).tries (fun b p v => can b (.param p) v) convert c = some vs := by
      unfold Spec.Init.overload
      rw [ctorInit_arity E i t _ hk']
      exact h
    obtain ⟨hv, hg, _⟩ := init_tries E hs hk' h'
    refine ⟨hx, ?_, ?_, fun _ h => (by cases h), htypes, ?_⟩
    · intro t' e'
      cases e'
      exact ⟨hg, fun hd => left_out_ctor hd (by omega)⟩
    · rintro (h | ⟨_, h⟩) <;> cases h
    · intro _ derived
      rw [← e]
      dsimp only
      unfold ctorInit
      split
      · rename_i hc
        simp only [Bool.and_eq_true, decide_eq_true_eq] at hc
        exact direct_makes E (by simp; omega) derived
      · apply created_makes E ha
        · simp; omega
        · rw [lambda_names E t.params k hk']
          exact lookups (argNames_nodup k) (by rw [hv]; simp [argNames])
  | copyCtor t =>
    obtain ⟨n, hn, e1, e2⟩ := (news_copy E hx y).1 hy
    have hk : y.init.keywords = [] := by rw [e2]; split <;> rfl
    unfold New.overload at h
    rw [hk, e1] at h
    obtain ⟨v, hc, rfl, _⟩ := one_argument.1 h
    refine ⟨hx, fun _ h => (by cases h), ?_, ?_, htypes, fun h => absurd rfl (h t)⟩
    · rintro (h | ⟨_, h⟩) <;> cases h
    · intro t' e'
      cases e'
      refine ⟨v, hc, rfl, n, hn, e1, ?_⟩
      intro derived hd
      rw [e2]
      by_cases hab : (E.cls i).isAbstract = true
      · rw [if_pos hab, hab]
        have : n = callbackName E i := by unfold createdClasses at hn; rw [if_pos hab] at hn; exact List.mem_singleton.1 hn
        refine .callback rfl ?_ (.inl rfl)
        unfold callbackOf; rw [if_pos (ha hab), this]
      · rw [if_neg hab]
        refine .lambda rfl ?_ ?_
        · simp
        · rcases hd with h | h | h
          · exact .inl h
          · exact .inr (.inr h)
          · exact .inr (.inl h)
  | _ => cases hy

/-- The constructor statements of a class, in order. -/
def newChain (i : Nat) : List ((Item × New) × Overload Takes) :=
  (ctorItems E i).flatMap fun x => (newsOf E i x).map fun y => ((x, y), y.overload)

theorem mem_newChain {i : Nat} {x : Item} {y : New} {o : Overload Takes} :
    ((x, y), o) ∈ newChain E i ↔ x ∈ ctorItems E i ∧ y ∈ newsOf E i x ∧ o = y.overload := by
  unfold newChain
  simp only [List.mem_flatMap, List.mem_map, Prod.mk.injEq]
  constructor
  · rintro ⟨x', hx, y', hy, ⟨rfl, rfl⟩, rfl⟩; exact ⟨hx, hy, rfl⟩
  · rintro ⟨hx, hy, rfl⟩; exact ⟨x, hx, y, hy, ⟨rfl, rfl⟩, rfl⟩

theorem newChain_call (i : Nat) {V : Type} (can : Bool → Takes → V → Bool) (c : PyCall V) (hs : c.Sane) (hmono : ∀ p v, can false p v = true → can true p v = true) :
    (∀ x y vs, dispatch can (newChain E i) c = some ((x, y), vs) → y ∈ newsOf E i x ∧ Reaches E i (can true) c x y vs ∧
      ((∃ z ∈ y.takes.zip vs, can false z.1 z.2 = false) → ∀ x' ∈ ctorItems E i, ¬ Accepts E i (can false) c x')) ∧
    (∀ x ∈ ctorItems E i, Accepts E i (can true) c x → (dispatch can (newChain E i) c).isSome = true) := by
  constructor
  · intro x y vs h
    obtain ⟨o, h1, ⟨convert, h2⟩, h3⟩ := dispatch_prefers h
    obtain ⟨hx, hy, rfl⟩ := (mem_newChain E).1 h1
    refine ⟨hy, tries_reaches E hs hmono hx hy h2, ?_⟩
    intro hz x' hx' hacc
    obtain ⟨y', hy', us, hu⟩ := accepts_tries E hs hx' hacc
    have := h3 hz _ ((mem_newChain E).2 ⟨hx', hy', rfl⟩)
    dsimp only at this
    rw [this] at hu
    cases hu
  · intro x hx hacc
    obtain ⟨y, hy, us, hu⟩ := accepts_tries E hs hx hacc
    exact dispatch_some ((mem_newChain E).2 ⟨hx, hy, rfl⟩) hu

theorem flatMap_cut {α β : Type} (f : α → List β) : ∀ {l : List α} {p q : List β} {b : β}, l.flatMap f = p ++ b :: q →
    ∃ x ∈ l, ∃ b1 b2, f x = b1 ++ b :: b2 ∧ ∀ y ∈ b1, y ∈ p := by
  intro l
  induction l with
  | nil => intro p q b h; cases p <;> cases h
  | cons a l ih =>
    intro p q b h
    rw [List.flatMap_cons] at h
    rcases List.append_eq_append_iff.1 h with ⟨r, h1, h2⟩ | ⟨r, h1, h2⟩
    · obtain ⟨x, hx, b1, b2, h3, h4⟩ := ih h2
      exact ⟨x, List.mem_cons_of_mem _ hx, b1, b2, h3, fun y hy => by rw [h1]; exact List.mem_append_right _ (h4 y hy)⟩
    · cases r with
      | nil =>
        obtain ⟨x, hx, b1, b2, h3, h4⟩ := ih (p := []) (by simpa using h2.symm)
        exact ⟨x, List.mem_cons_of_mem _ hx, b1, b2, h3, fun y hy => by cases h4 y hy⟩
      | cons r0 r =>
        rw [List.cons_append, List.cons.injEq] at h2
        obtain ⟨rfl, _⟩ := h2
        exact ⟨a, List.mem_cons_self, p, r, h1, fun y hy => hy⟩

/-- Nothing before the statement that is reached takes the call. -/
theorem dispatch_before {β α V : Type} {can : Bool → α → V → Bool} {os : List (β × Overload α)} {c : PyCall V} {b : β} {ws : List V}
    (h : dispatch can os c = some (b, ws)) : ∃ convert o pre post, os = pre ++ (b, o) :: post ∧ o.tries can convert c = some ws ∧
      ∀ x ∈ pre, x.2.tries can convert c = none := by
  have pass : ∀ convert, (os.findSome? fun o => (o.2.tries can convert c).map fun vs => (o.1, vs)) = some (b, ws) →
      ∃ o pre post, os = pre ++ (b, o) :: post ∧ o.tries can convert c = some ws ∧ ∀ x ∈ pre, x.2.tries can convert c = none := by
    intro convert hp
    obtain ⟨pre, ⟨b', o⟩, post, h1, h2, h3⟩ := List.findSome?_eq_some_iff.1 hp
    simp only [Option.map_eq_some_iff, Prod.mk.injEq] at h2
    obtain ⟨vs, h2, rfl, rfl⟩ := h2
    exact ⟨o, pre, post, h1, h2, fun x hx => by simpa using h3 x hx⟩
  unfold dispatch at h
  simp only at h
  split at h
  · exact ⟨true, pass true h⟩
  · split at h
    · rename_i r' hr'
      cases h
      exact ⟨false, pass false hr'⟩
    · exact ⟨true, pass true h⟩

/-- Copies of objects of a class with a callback structure are made by the first of the two statements. -/
theorem newChain_copy {i : Nat} {n : Str} (hn : callbackOf E i = some n) (hab : (E.cls i).isAbstract = false) {V : Type} {can : Bool → Takes → V → Bool}
    (hal : ∀ convert v, can convert (.object (classQualifiedName E (E.cls i))) v = true → can convert (.object n) v = true) {c : PyCall V} {t : Func} {y : New} {vs : List V}
    (h : dispatch can (newChain E i) c = some ((.copyCtor t, y), vs)) : y.takes = [.object n] := by
  have ht : trampoline E i = true := by
    unfold callbackOf at hn
    split at hn
    · assumption
    · cases hn
  have hcb : callbackName E i = n := by unfold callbackOf at hn; rw [if_pos ht] at hn; exact Option.some.inj hn
  obtain ⟨convert, o, pre, post, h1, h2, h3⟩ := dispatch_before h
  obtain ⟨x, hx, b1, b2, h4, h5⟩ := flatMap_cut _ h1
  have hmem : ((Item.copyCtor t, y), o) ∈ (newsOf E i x).map fun y => ((x, y), y.overload) := by rw [h4]; simp
  obtain ⟨y', _, e⟩ := List.mem_map.1 hmem
  simp only [Prod.mk.injEq] at e
  obtain ⟨⟨rfl, rfl⟩, rfl⟩ := e
  have hp : (t.access == .pub) = true := by rw [copy_public E hx]; rfl
  simp only [newsOf, ht, hab, hp, if_true, Bool.false_eq_true, if_false, hcb, List.map_cons, List.map_nil] at h4
  match b1, h4, h5 with
  | [], h4, _ =>
    rw [List.nil_append, List.cons.injEq] at h4
    simp only [Prod.mk.injEq, true_and] at h4
    rw [← h4.1.1]
  | a :: b1, h4, h5 =>
    rw [List.cons_append, List.cons.injEq] at h4
    obtain ⟨e1, e2⟩ := h4
    have hnone := h3 a (h5 a List.mem_cons_self)
    rw [← e1] at hnone
    have hy : y' = ⟨.viaLambda [(classQualifiedName E (E.cls i) ++ constBit t ++ c!" &", c!"o")] [c!"o"] [classQualifiedName E (E.cls i)] none,
        [.object (classQualifiedName E (E.cls i))]⟩ := by
      match b1, e2 with
      | [], e2 => simp only [List.nil_append, List.cons.injEq, Prod.mk.injEq, true_and] at e2; exact e2.1.1.symm
      | _ :: _, e2 => simp at e2
    rw [hy] at h2
    obtain ⟨v, hc, _, hcan⟩ := one_argument.1 h2
    have := (one_argument (a := Takes.object n) (can := can) (convert := convert) (c := c) (ws := [v])).2 ⟨v, hc, rfl, hal _ _ hcan⟩
    unfold New.overload at hnone
    dsimp only [Init.keywords, Option.getD] at hnone
    rw [this] at hnone
    cases hnone

/-! ## The statements of an imported module -/

/-- A constructor. -/
def Item.isInit : Item → Bool
  | .implicitDefault => true
  | .defaultCtor _ => true
  | .copyCtor _ => true
  | .ctor _ => true
  | _ => false

theorem inits_of_class (hw : E.Wellfounded) (i : Nat) : (classItems E i).filter Item.isInit = ctorItems E i := by
  unfold classItems
  have key : ∀ {l : List Item}, (∀ x ∈ l, x.isInit = false) → l.filter Item.isInit = [] := by
    intro l h
    rw [List.filter_eq_nil_iff]
    intro x hx
    simp [h x hx]
  simp only [List.filter_append]
  have h1 : (ctorItems E i).filter Item.isInit = ctorItems E i := by
    rw [List.filter_eq_self]
    intro x hx
    rcases ctorItems_kind E hx with rfl | ⟨t, rfl | rfl | rfl⟩ <;> rfl
  rw [h1, key fun x hx => ?_, key fun x hx => ?_, key fun x hx => ?_, key fun x hx => ?_, key fun x hx => ?_, key fun x hx => ?_]
  · simp
  · obtain ⟨e, rfl⟩ := addOnItems_kind E hx; rfl
  · obtain ⟨e, rfl⟩ := reprItems_kind E hx; rfl
  · obtain ⟨k, hk, hx | hx⟩ := (mem_templateBasesF E hw _ i (Nat.lt_succ_self _) x).1 hx
    · obtain ⟨e, rfl, _⟩ := (mem_dataMembers E k _).1 hx; rfl
    · rcases (mem_memberFunctions E k _).1 hx with ⟨e, rfl, _⟩ | ⟨e, rfl, _⟩ <;> rfl
  · rcases (mem_memberFunctions E i _).1 hx with ⟨e, rfl, _⟩ | ⟨e, rfl, _⟩ <;> rfl
  · obtain ⟨e, rfl, _⟩ := (mem_dataMembers E i _).1 hx; rfl
  · obtain ⟨e, rfl⟩ := enumItems_kind E hx; rfl

theorem news_ops {i : Nat} {x : Item} (hx : x.isInit = true) (s : Scope) :
    itemOps E i s x = (newsOf E i x).map fun _ => Op.function s c!"__init__" true := by
  cases x with
  | implicitDefault => rfl
  | defaultCtor t => rfl
  | ctor t => simp [itemOps, newsOf, overloads]
  | copyCtor t =>
    simp only [itemOps, newsOf]
    by_cases ht : trampoline E i = true
    · by_cases hab : (E.cls i).isAbstract = true
      · simp [ht, hab]
      · by_cases hp : (t.access == .pub) = true
        · simp [ht, hab, hp]
        · simp [ht, hab, hp]
    · simp [ht]
  | _ => cases hx

/-- The calls for the constructors of a class. -/
def initOps (i : Nat) : List Op := (ctorItems E i).flatMap fun x => (newsOf E i x).map fun _ => .function (.type (classQualifiedName E (E.cls i))) c!"__init__" true

theorem items_inits (i : Nat) (t s : Scope) (l : List Item) (hm : ∀ x ∈ l.filterMap (itemBinding t), ¬ (x.1 = s ∧ boundName E x.2.F = c!"__init__")) :
    (l.flatMap (itemOps E i t)).filter (Op.defines s c!"__init__") =
      if t = s then (l.filter Item.isInit).flatMap (itemOps E i t) else [] := by
  induction l with
  | nil => simp
  | cons x l ih =>
    have ih' := ih fun y hy => hm y (by rw [List.filterMap_cons]; split <;> simp [hy])
    rw [List.flatMap_cons, List.filter_append, ih', List.filter_cons]
    by_cases hx : x.isInit = true
    · rw [if_pos hx, List.flatMap_cons, news_ops E hx]
      by_cases hts : t = s
      · rw [if_pos hts, if_pos hts, List.filter_eq_self.2]
        intro op hop
        obtain ⟨_, _, rfl⟩ := List.mem_map.1 hop
        simp [Op.defines, hts]
      · rw [if_neg hts, if_neg hts, List.append_nil, List.filter_eq_nil_iff]
        intro op hop
        obtain ⟨_, _, rfl⟩ := List.mem_map.1 hop
        simp [Op.defines, hts]
    · rw [if_neg hx]
      have : (itemOps E i t x).filter (Op.defines s c!"__init__") = [] := by
        rw [List.filter_eq_nil_iff]
        intro op hop
        cases x with
        | method f parent lam =>
          have hm' := hm (t, ⟨f, parent, lam⟩) (by simp [itemBinding])
          simp only [itemOps, overloads, List.mem_map] at hop
          obtain ⟨_, _, rfl⟩ := hop
          simpa [Op.defines] using hm'
        | enum e => simp only [itemOps, List.mem_singleton] at hop; subst hop; simp [enumOp, Op.defines]
        | field o f => simp only [itemOps, List.mem_singleton] at hop; subst hop; simp [Op.defines]
        | repr F => simp only [itemOps, List.mem_singleton] at hop; subst hop; simp [Op.defines]
        | addOn f => simp only [itemOps, List.mem_singleton] at hop; subst hop; simp [Op.defines]
        | implicitDefault => exact absurd rfl hx
        | defaultCtor t => exact absurd rfl hx
        | copyCtor t => exact absurd rfl hx
        | ctor t => exact absurd rfl hx
      rw [this, List.nil_append]

/-- The calls for the constructors of the classes with a name. -/
def initsNamed (q : Str) (l : List Nat) : List Op :=
  (l.filter fun j => decide (classQualifiedName E (E.cls j) = q) && (E.cfg.binders (stdName E (E.cls j).qname)).isNone).flatMap (initOps E)

theorem initsNamed_append (q : Str) (a b : List Nat) : initsNamed E q (a ++ b) = initsNamed E q a ++ initsNamed E q b := by
  simp [initsNamed]

theorem class_inits (hw : E.Wellfounded) (q : Str) (k : Nat) : ∀ (outer : Scope) (i : Nat),
    (∀ x ∈ classBindingsF E k outer i, ¬ (x.1 = .type q ∧ boundName E x.2.F = c!"__init__")) →
    (classOpsF E k outer i).filter (Op.defines (.type q) c!"__init__") = initsNamed E q (registersF E k i) := by
  induction k with
  | zero => intro outer i _; rfl
  | succ k ih =>
    intro outer i hm
    unfold classOpsF registersF
    unfold classBindingsF at hm
    simp only at hm ⊢
    split
    · rfl
    · rename_i hbi
      split
      · rename_i hx
        obtain ⟨b, hb⟩ := Option.isSome_iff_exists.1 hx
        simp [Op.defines, initsNamed, hb]
      · rename_i hx
        rw [if_neg hbi, if_neg hx] at hm
        rw [List.filter_append, List.filter_append, items_inits E i _ _ _ fun x hx => hm x (List.mem_append_left _ hx), inits_of_class E hw,
          initsNamed_append, List.filter_flatMap]
        congr 1
        · have hxn : E.cfg.binders (stdName E (E.cls i).qname) = none := by simpa using hx
          by_cases ha : (E.cls i).isAnonymous = true
          · have : ctorItems E i = [] := by unfold ctorItems; simp [ha]
            simp [ha, this, initsNamed]
          · simp only [ha, Bool.false_eq_true, if_false, Scope.type.injEq]
            have e1 : List.filter (Op.defines (.type q) c!"__init__") [Op.class_ (if (E.cls i).outer.isSome = true then outer else .module (nsOf E (E.cls i).qname (E.cls i).name))
                (pythonClassName E (E.cls i)) (classQualifiedName E (E.cls i)) ((boundBases E (E.cls i)).map fun j => classQualifiedName E (E.cls j))] = [] := by
              simp [Op.defines]
            rw [e1, List.nil_append]
            unfold initsNamed
            rw [List.filter_cons, List.filter_nil]
            by_cases hq : classQualifiedName E (E.cls i) = q
            · rw [if_pos hq, if_pos (by simp [hq, hxn])]
              simp only [List.flatMap_cons, List.flatMap_nil, List.append_nil, initOps]
              have : ∀ l : List Item, (∀ x ∈ l, x.isInit = true) → l.flatMap (itemOps E i (.type (classQualifiedName E (E.cls i)))) =
                  l.flatMap fun x => (newsOf E i x).map fun _ => Op.function (.type (classQualifiedName E (E.cls i))) c!"__init__" true := by
                intro l hl
                induction l with
                | nil => rfl
                | cons x l ih =>
                  rw [List.flatMap_cons, List.flatMap_cons, news_ops E (hl x List.mem_cons_self), ih fun y hy => hl y (List.mem_cons_of_mem _ hy)]
              apply this
              intro x hx
              rcases ctorItems_kind E hx with rfl | ⟨t, rfl | rfl | rfl⟩ <;> rfl
            · rw [if_neg hq, if_neg (by simp [hq])]; rfl
        · have : ∀ l : List Nat, (∀ m ∈ l, m ∈ nestedBound E (E.cls i)) →
              (l.flatMap fun a => (classOpsF E k (if (E.cls i).isAnonymous then outer else .type (classQualifiedName E (E.cls i))) a).filter (Op.defines (.type q) c!"__init__")) =
              initsNamed E q (l.flatMap (registersF E k)) := by
            intro l hl
            induction l with
            | nil => rfl
            | cons m l ihl =>
              rw [List.flatMap_cons, List.flatMap_cons, initsNamed_append, ihl fun y hy => hl y (List.mem_cons_of_mem _ hy), ih]
              intro x hx
              exact hm x (List.mem_append_right _ (List.mem_flatMap.2 ⟨m, hl m List.mem_cons_self, hx⟩))
          exact this _ fun m hm => hm

theorem visit_inits (hw : E.Wellfounded) (q : Str) (v : Visit) (hm : ∀ x ∈ bindingsOf E v, ¬ (x.1 = .type q ∧ boundName E x.2.F = c!"__init__")) :
    (opsOf E v).filter (Op.defines (.type q) c!"__init__") = initsNamed E q (registers E v) := by
  cases v with
  | fn F =>
    unfold opsOf
    rw [filter_overloads]
    simp [Op.defines, registers, initsNamed]
  | cls i => exact class_inits E hw q _ _ i hm
  | enm i => simp [opsOf, enumOp, Op.defines, registers, initsNamed]

theorem stmts_inits (hw : E.Wellfounded) (q : Str) (l : List Stmt)
    (hm : ∀ x ∈ (l.filterMap Stmt.bound).flatMap (bindingsOf E), ¬ (x.1 = .type q ∧ boundName E x.2.F = c!"__init__")) :
    (l.flatMap (Stmt.ops E)).filter (Op.defines (.type q) c!"__init__") = initsNamed E q ((l.filterMap Stmt.bound).flatMap (registers E)) := by
  induction l with
  | nil => rfl
  | cons a l ih =>
    rw [List.flatMap_cons, List.filter_append]
    cases a with
    | binds v =>
      have hm' : ∀ x ∈ bindingsOf E v ++ (l.filterMap Stmt.bound).flatMap (bindingsOf E), ¬ (x.1 = .type q ∧ boundName E x.2.F = c!"__init__") := hm
      rw [ih fun x hx => hm' x (List.mem_append_right _ hx)]
      show List.filter _ (opsOf E v) ++ _ = initsNamed E q ((v :: l.filterMap Stmt.bound).flatMap (registers E))
      rw [visit_inits E hw q v fun x hx => hm' x (List.mem_append_left _ hx), List.flatMap_cons, initsNamed_append]
    | calls f ns => rw [ih hm]; rfl
    | traces k t => rw [ih hm]; rfl

theorem registers_types (k : Nat) : ∀ (outer : Scope) (i : Nat),
    ((registersF E k i).map fun j => classQualifiedName E (E.cls j)).Sublist ((classOpsF E k outer i).filterMap Op.type?) := by
  induction k with
  | zero => intro outer i; exact .slnil
  | succ k ih =>
    intro outer i
    unfold classOpsF registersF
    simp only
    split
    · exact .slnil
    · split
      · exact .refl _
      · rw [List.map_append, List.filterMap_append, List.filterMap_append]
        apply List.Sublist.append
        · split
          · simp
          · simp only [List.map_cons, List.map_nil, List.filterMap_cons, List.filterMap_nil, Op.type?]
            exact List.sublist_append_left _ _
        · have : ∀ l : List Nat, ((l.flatMap (registersF E k)).map fun j => classQualifiedName E (E.cls j)).Sublist
              ((l.flatMap (classOpsF E k (if (E.cls i).isAnonymous then outer else .type (classQualifiedName E (E.cls i))))).filterMap Op.type?) := by
            intro l
            induction l with
            | nil => exact .slnil
            | cons m l ihl =>
              rw [List.flatMap_cons, List.flatMap_cons, List.map_append, List.filterMap_append]
              exact (ih _ m).append ihl
          exact this _

theorem registered_types (l : List Stmt) : (((l.filterMap Stmt.bound).flatMap (registers E)).map fun j => classQualifiedName E (E.cls j)).Sublist
    ((l.flatMap (Stmt.ops E)).filterMap Op.type?) := by
  induction l with
  | nil => exact .slnil
  | cons a l ih =>
    rw [List.flatMap_cons, List.filterMap_append]
    cases a with
    | binds v =>
      show (((v :: l.filterMap Stmt.bound).flatMap (registers E)).map _).Sublist (List.filterMap _ (opsOf E v) ++ _)
      rw [List.flatMap_cons, List.map_append]
      refine List.Sublist.append ?_ ih
      cases v with
      | cls i => exact registers_types E _ _ i
      | fn F => exact List.nil_sublist _
      | enm i => exact List.nil_sublist _
    | calls f ns => exact ih.trans (List.sublist_append_right _ _)
    | traces k t => exact ih.trans (List.sublist_append_right _ _)

theorem filter_unique {α β : Type} [DecidableEq β] (f : α → β) (g : α → Bool) : ∀ {l : List α}, (l.map f).Nodup → ∀ {a : α}, a ∈ l → g a = true →
    l.filter (fun x => decide (f x = f a) && g x) = [a] := by
  intro l
  induction l with
  | nil => intro _ a h; cases h
  | cons b l ih =>
    intro hn a h hg
    rw [List.map_cons, List.nodup_cons] at hn
    rw [List.filter_cons]
    rcases List.mem_cons.1 h with rfl | h
    · rw [if_pos (by simp [hg]), List.filter_eq_nil_iff.2]
      intro x hx
      have : f x ≠ f a := fun e => hn.1 (e ▸ List.mem_map_of_mem hx)
      simp [this]
    · rw [if_neg, ih hn.2 h hg]
      have : f b ≠ f a := fun e => hn.1 (e ▸ List.mem_map_of_mem h)
      simp [this]

theorem import_inits {U : TransUnit} (hw : U.E.Wellfounded) {o : Opts} {fs fs' : FS} {srcs : List Source} (hg : Generated U o fs fs' srcs)
    {pairs : List (Str × Str)} {p : Py} (h : importModule pairs (importOps U.E srcs) = some p) {i : Nat} (hi : HasClass U i) {q : Str}
    (hq : q = classQualifiedName U.E (U.E.cls i)) (hno : bindingsIn U.E srcs (.type q) c!"__init__" = []) :
    (importOps U.E srcs).filter (Op.defines (.type q) c!"__init__") = initOps U.E i := by
  have hnd := (C81_needed pairs _ p h).2.2.1
  obtain ⟨⟨v, hv, hns, hreg⟩, hx⟩ := hi
  have hin : i ∈ (srcs.flatMap Source.bound).flatMap (registers U.E) := List.mem_flatMap.2 ⟨v, (hg.exactly v).2 ⟨hv, hns⟩, hreg⟩
  rw [importOps_eq] at hnd ⊢
  rw [stmts_inits U.E hw q]
  · rw [← bound_stmts] at hin
    unfold initsNamed
    rw [hq, filter_unique _ _ (hnd.sublist (registered_types U.E _)) hin (by simp [hx])]
    simp
  · rw [bound_stmts]
    intro x hx' ⟨e1, e2⟩
    have : x.2 ∈ bindingsIn U.E srcs (.type q) c!"__init__" := by
      unfold bindingsIn
      exact List.mem_map.2 ⟨x, List.mem_filter.2 ⟨hx', by simp [e1, e2]⟩, rfl⟩
    rw [hno] at this
    cases this

theorem news_nonempty {i : Nat} {x : Item} (hx : x.isInit = true) : newsOf E i x ≠ [] := by
  cases x with
  | implicitDefault => simp [newsOf]
  | defaultCtor t => simp [newsOf]
  | ctor t =>
    simp only [newsOf]
    have := firstDefault_le t.params
    intro h
    rw [List.map_eq_nil_iff] at h
    have : t.params.length ∈ arities (firstDefault t.params) t.params.length := by
      simp only [arities, List.mem_range'_1]; omega
    rw [h] at this
    cases this
  | copyCtor t =>
    simp only [newsOf]
    split
    · split <;> simp
    · simp
  | _ => cases hx

/-- C94. After the import, a C++ class that has a Python class can be created from Python exactly if it has a constructor that is bound (see
`C48_constructors_partial`), and creating an object is about the statements for these constructors, in order, and about nothing else. The
statement that a call reaches belongs to a constructor of the class, gets exactly the arguments of the call, and makes a C++ object of the right
class with them: of the callback structure if the Python object belongs to a class derived in Python, or if the C++ class is abstract, and of the
class itself otherwise. Every call that suits one of the constructors is accepted, and a statement that needs conversions is reached only if
no constructor takes the arguments as they are. Copies are different: if the class has a callback structure and is not abstract, and if every
Python object that is accepted for the class is also accepted for the callback structure, then always the statement for the callback
structure is reached (see `C94_copy_false`). -/
theorem C94_construct_partial (U : TransUnit) (hw : U.E.Wellfounded) (o : Opts) (fs fs' : FS) (srcs : List Source) (hg : Generated U o fs fs' srcs)
    (pairs : List (Str × Str)) (p : Py) (h : importModule pairs (importOps U.E srcs) = some p) (i : Nat) (hi : HasClass U i) (q : Str)
    (hq : q = classQualifiedName U.E (U.E.cls i)) (hobj : ∀ op, Made U op → ((.type q, c!"__init__"), .object) ∉ op.binds)
    (hno : bindingsIn U.E srcs (.type q) c!"__init__" = []) :
    p.own (.type q) c!"__init__" = (if ctorItems U.E i = [] then none else some (.func true)) ∧
    ∃ news : Item → List New,
      (importOps U.E srcs).filter (Op.defines (.type q) c!"__init__") =
        (ctorItems U.E i).flatMap (fun x => (news x).map fun _ => .function (.type q) c!"__init__" true) ∧
      (∀ x ∈ ctorItems U.E i, Statements (news x) (itemText U.E i x) ∧ ∀ y ∈ news x, TakesFor x y) ∧
      ∀ (V : Type) (can : Bool → Takes → V → Bool) (c : PyCall V), c.Sane → (∀ p v, can false p v = true → can true p v = true) →
        let reached := dispatch can ((ctorItems U.E i).flatMap fun x => (news x).map fun y => ((x, y), y.overload)) c
        (∀ x y vs, reached = some ((x, y), vs) → y ∈ news x ∧ Reaches U.E i (can true) c x y vs ∧
          ((∃ z ∈ y.takes.zip vs, can false z.1 z.2 = false) → ∀ x' ∈ ctorItems U.E i, ¬ Accepts U.E i (can false) c x')) ∧
        (∀ x ∈ ctorItems U.E i, Accepts U.E i (can true) c x → reached.isSome = true) ∧
        (∀ n, callbackOf U.E i = some n → (U.E.cls i).isAbstract = false →
          (∀ convert v, can convert (.object q) v = true → can convert (.object n) v = true) →
          ∀ t y vs, reached = some ((.copyCtor t, y), vs) → y.takes = [.object n]) := by
  have hinit := import_inits hw hg h hi hq hno
  refine ⟨?_, newsOf U.E i, ?_, ?_, ?_⟩
  · obtain ⟨k1, k2⟩ := C84_names U o fs fs' srcs hg pairs p h (.type q) c!"__init__"
    have hfun : ∀ op kind, Made U op → ((.type q, c!"__init__"), kind) ∈ op.binds → op ∈ initOps U.E i := by
      intro op kind hop hk
      have hin := (mem_importOps hg op (by rintro s rfl; cases hk)).2 hop
      rw [← hinit, List.mem_filter]
      refine ⟨hin, ?_⟩
      cases kind with
      | object => exact absurd hk (hobj op hop)
      | func m =>
        cases op <;> simp only [Op.binds, List.mem_singleton, Prod.mk.injEq, List.mem_cons, reduceCtorEq, and_false, false_or, List.not_mem_nil] at hk
        case enum_ => split at hk <;> simp at hk
        case function => 
          obtain ⟨⟨rfl, rfl⟩, _⟩ := hk.resolve_right id
          simp [Op.defines]
    split
    · rename_i hnil
      cases ho : p.own (.type q) c!"__init__" with
      | none => rfl
      | some kind =>
        rcases k2 kind ho with ⟨op, hop, hk⟩ | ⟨_, x, _, e, _⟩
        · have := hfun op kind hop hk
          unfold initOps at this
          rw [hnil] at this
          cases this
        · cases e
    · rename_i hne
      obtain ⟨x, hx⟩ := List.exists_mem_of_ne_nil _ hne
      have hxi : x.isInit = true := by rcases ctorItems_kind U.E hx with rfl | ⟨t, rfl | rfl | rfl⟩ <;> rfl
      obtain ⟨y, hy⟩ := List.exists_mem_of_ne_nil _ (news_nonempty U.E (i := i) hxi)
      have hop : Op.function (.type q) c!"__init__" true ∈ (importOps U.E srcs).filter (Op.defines (.type q) c!"__init__") := by
        rw [hinit]
        exact List.mem_flatMap.2 ⟨x, hx, List.mem_map.2 ⟨y, hy, by rw [hq]⟩⟩
      have hmade := (mem_importOps hg _ (by simp)).1 (List.mem_filter.1 hop).1
      obtain ⟨kind, ho⟩ := Option.isSome_iff_exists.1 (k1.2 (.inl ⟨_, .func true, hmade, by simp [Op.binds]⟩))
      rw [ho]
      rcases k2 kind ho with ⟨op, hop, hk⟩ | ⟨_, x, _, e, _⟩
      · have := hfun op kind hop hk
        unfold initOps at this
        obtain ⟨_, _, hop'⟩ := List.mem_flatMap.1 this
        obtain ⟨_, _, e⟩ := List.mem_map.1 hop'
        rw [← e] at hk
        simp only [Op.binds, List.mem_singleton, Prod.mk.injEq] at hk
        rw [hk.2]
      · cases e
  · rw [hinit, hq]; rfl
  · intro x hx
    exact ⟨news_text U.E hx, fun y hy => news_takes U.E hy⟩
  · intro V can c hs hmono
    have := newChain_call U.E i can c hs hmono
    exact ⟨this.1, this.2, fun n hn hab hal t y vs hr => newChain_copy U.E hn hab (hq ▸ hal) hr⟩

/-- The hypotheses of C94 are met by the class `n::A` of the example program, and the call `A()`. -/
example : ∃ fs' srcs pairs p, Generated Ex.unit (Ex.opts 1000) Ex.fsEmpty fs' srcs ∧ importModule pairs (importOps Ex.unit.E srcs) = some p ∧
    Ex.unit.E.Wellfounded ∧ HasClass Ex.unit 0 ∧ classQualifiedName Ex.unit.E (Ex.unit.E.cls 0) = c!"n::A" ∧
    (∀ op, Made Ex.unit op → ((.type c!"n::A", c!"__init__"), .object) ∉ op.binds) ∧
    bindingsIn Ex.unit.E srcs (.type c!"n::A") c!"__init__" = [] ∧
    Item.implicitDefault ∈ ctorItems Ex.unit.E 0 ∧ Accepts Ex.unit.E 0 (fun _ (_ : Nat) => true) ⟨[], []⟩ .implicitDefault := by
  obtain ⟨fs', srcs, pairs, p, hg, hp, _⟩ := Ex.unit_imported
  have hr : Reached Ex.unit (.cls 0) := by
    refine Ex.asked (by decide +kernel) True.intro (by decide +kernel) ?_ rfl (by decide +kernel)
    unfold Converted; decide +kernel
  refine ⟨fs', srcs, pairs, p, hg, hp, Ex.env_wellfounded, ⟨⟨.cls 0, hr, rfl, by decide +kernel⟩, rfl⟩, by decide +kernel, ?_, ?_, ?_, rfl⟩
  · rintro op ⟨v, hv, _, hop⟩
    have : ∀ v ∈ Ex.unit.visits, ∀ op ∈ opsOf Ex.unit.E v, ((Scope.type c!"n::A", c!"__init__"), Kind.object) ∉ op.binds := by decide +kernel
    exact this v (Ex.unit_visits hv) op hop
  · rw [List.eq_nil_iff_forall_not_mem]
    intro b hb
    obtain ⟨⟨v, hv, hb⟩, e⟩ := mem_bindingsIn.1 hb
    have hv' := Ex.unit_visits ((hg.exactly v).1 hv).1
    have : ∀ v ∈ Ex.unit.visits, (bindingsOf Ex.unit.E v).all (fun x => decide (boundName Ex.unit.E x.2.F ≠ c!"__init__")) = true := by decide +kernel
    have := List.all_eq_true.1 (this v hv') _ hb
    exact absurd e (by simpa using this)
  · have : (ctorItems Ex.unit.E 0).any (fun x => match x with | .implicitDefault => true | _ => false) = true := by decide +kernel
    obtain ⟨x, hx, e⟩ := List.any_eq_true.1 this
    cases x <;> first | exact hx | cases e

/-- `A(A const &o)` -/
def plainCopy : Func := exampleCtor [⟨c!"o", .lref (.const (.record 0)), false⟩] false (some true)

/-- `struct A { A(A const &o); A(int x, int y = 1); virtual int f(); };` -/
def virtualCopied : Env :=
  { exampleEnv with cls := fun _ => { exampleRecord with
      members := [.method plainCopy, .method twoArguments, .method (virtualMethod 0 c!"A" c!"f" (.basic 0) [] false false false .pub)]
      needsImplicitDefaultConstructor := false } }

theorem virtualCopied_ctors : ctorItems virtualCopied 0 = [.copyCtor plainCopy, .ctor twoArguments] := by rfl

/-- C94 fails for copies: for this class, copying any object, for a Python object of the class itself, makes an object of the callback structure. pybind11
accepts the same Python objects for a class and for its callback structure; so the statement for the callback structure, which comes first,
is always the one that is reached. (It takes the object for an object of the callback structure, even if it is none.) -/
theorem C94_copy_false : ∃ (E : Env) (t : Func), E.Wellfounded ∧ ctorItems E 0 = [.copyCtor t, .ctor twoArguments] ∧ (E.cls 0).isAbstract = false ∧
    classQualifiedName E (E.cls 0) = c!"A" ∧ callbackOf E 0 = some c!"PyCallBack_A" ∧
    itemText E 0 (.copyCtor t) = (c!"\tcl.def( pybind11::init( [](PyCallBack_A const &o){ return new PyCallBack_A(o); } ) );\n" ++
      c!"\tcl.def( pybind11::init( [](A const &o){ return new A(o); } ) );\n") ∧
    ∃ news : Item → List New, (∀ x ∈ ctorItems E 0, Statements (news x) (itemText E 0 x) ∧ ∀ y ∈ news x, TakesFor x y) ∧
      ∀ (V : Type) (can : Bool → Takes → V → Bool), (∀ p v, can false p v = true → can true p v = true) →
        (∀ convert v, can convert (.object c!"A") v = can convert (.object c!"PyCallBack_A") v) →
        ∀ v, can true (.object c!"A") v = true → (∀ p, can true (.param p) v = false) →
          ∃ y, dispatch can ((ctorItems E 0).flatMap fun x => (news x).map fun y => ((x, y), y.overload)) ⟨[v], []⟩ = some ((.copyCtor t, y), [v]) ∧
            Makes c!"A" (some c!"PyCallBack_A") false false y.init [v] c!"PyCallBack_A" [v] := by
  have hq : classQualifiedName virtualCopied (virtualCopied.cls 0) = c!"A" := by decide +kernel
  have hcb : callbackOf virtualCopied 0 = some c!"PyCallBack_A" := by decide +kernel
  refine ⟨virtualCopied, plainCopy, ?_, virtualCopied_ctors, rfl, hq, hcb, by decide +kernel, newsOf virtualCopied 0,
    fun x hx => ⟨news_text _ hx, fun y hy => news_takes _ hy⟩, ?_⟩
  · refine ⟨?_, ?_, ?_⟩
    · intro i b hb; simp [virtualCopied, exampleRecord] at hb
    · intro i t ht; simp [virtualCopied, exampleRecord, Record.typeArgs, Record.functionArgTypes] at ht
    · intro i j hj; simp [virtualCopied, Env.nestedClasses] at hj
  · intro V can hmono hal v hv hp
    have hs : (⟨[v], []⟩ : PyCall V).Sane := ⟨List.nodup_nil, fun x hx => by cases hx⟩
    obtain ⟨h1, h2⟩ := newChain_call virtualCopied 0 can ⟨[v], []⟩ hs hmono
    have hsome := h2 (.copyCtor plainCopy) (by rw [virtualCopied_ctors]; simp) ⟨v, rfl, c!"A", by decide +kernel, hv⟩
    obtain ⟨⟨⟨x, y⟩, vs⟩, hr⟩ := Option.isSome_iff_exists.1 hsome
    obtain ⟨hy, hre, _⟩ := h1 x y vs hr
    have hx := hre.item
    rw [virtualCopied_ctors] at hx
    simp only [List.mem_cons, List.not_mem_nil, or_false] at hx
    rcases hx with rfl | rfl
    · obtain ⟨w, e1, rfl, n, hn, e2, e3⟩ := hre.copy plainCopy rfl
      cases e1
      have e4 := newChain_copy virtualCopied hcb rfl (by intro b u hu; rw [hq] at hu; rw [← hal]; exact hu) hr
      rw [e2] at e4
      cases e4
      have e5 := e3 false (.inr (.inr rfl))
      rw [hq, hcb] at e5
      exact ⟨y, hr, e5⟩
    · exfalso
      obtain ⟨hg, _⟩ := hre.ctor twoArguments rfl
      obtain ⟨us, e⟩ := hg.2.1
      have ht : ∃ p ps, y.takes = .param p :: ps := by
        obtain ⟨k, hk, rfl⟩ := List.mem_map.1 hy
        have : k = 1 ∨ k = 2 := by
          have : k ∈ [1, 2] := hk
          simpa using this
        rcases this with rfl | rfl <;> exact ⟨_, _, rfl⟩
      obtain ⟨p, ps, ht⟩ := ht
      have := hre.types (.param p, v) (by rw [ht, ← e]; simp)
      rw [hp] at this
      cases this

/-- For this class, the call `A(y = 1, x = 5)` is meant for the second constructor, `A(5)` too, and `A(a)` for the first one. -/
example : Accepts virtualCopied 0 (fun _ (_ : Nat) => true) ⟨[], [(c!"y", 1), (c!"x", 5)]⟩ (.ctor twoArguments) ∧
    Accepts virtualCopied 0 (fun _ (_ : Nat) => true) ⟨[5], []⟩ (.ctor twoArguments) ∧
    Accepts virtualCopied 0 (fun _ (_ : Nat) => true) ⟨[7], []⟩ (.copyCtor plainCopy) := by
  refine ⟨⟨[5, 1], ⟨⟨⟨by decide, List.nil_prefix, ?_⟩, by decide, by unfold NamesDiffer; decide⟩, .inr (.inr ⟨rfl, rfl⟩)⟩, fun _ _ => rfl⟩,
    ⟨[5], ⟨⟨⟨by decide, List.prefix_refl _, .refl _⟩, by decide, by unfold NamesDiffer; decide⟩, .inl rfl⟩, fun _ _ => rfl⟩, ⟨7, rfl, c!"A", by decide +kernel, rfl⟩⟩
  exact .swap _ _ _

end Binder
