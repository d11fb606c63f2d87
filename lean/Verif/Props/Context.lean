import Verif.Lemmas.Bind
import Verif.Lemmas.Sort
import Verif.Lemmas.SortCycle

/-!
# Properties C23-C30: registration, request propagation and dependency sorting (`source/context.cpp`)
-/

namespace Binder

open Spec

/-! ## Example declarations

Namespace `n` is requested: class `n::A` derives from `n::B` and mentions `m::E`; `n::B` derives from `m::S`, a class of a system
header; `m::U` is skipped although `n::A` mentions it; `m::F` is mentioned by nobody. -/

namespace Ex

/-- A class declaration named `name` in namespace `ns`. -/
def cls (ptr : Nat) (ns name : Str) (asked sys skip : Bool) (requests : List Str) (deps : List Rec) : Decl :=
  { ident := ns ++ c!"::" ++ name, ns := ns, typeName := some (c!"class " ++ ns ++ c!"::" ++ name),
    record := some ⟨ptr, ns ++ c!"::" ++ name, false⟩, canBind := true, builtin := false, inSystem := sys, skipAsked := skip,
    bindAsked := asked, genCode := c!"{ class " ++ name ++ c!" }", genPrefix := [], requests := requests, deps := deps,
    incl := c!"<h.hh>", includes := [c!"<h.hh>"] }

def recB : Rec := ⟨2, c!"n::B", false⟩
def recS : Rec := ⟨3, c!"m::S", false⟩

def dA : Decl := cls 1 c!"n" c!"A" true false false [c!"class n::B", c!"class m::E", c!"class m::U", c!"class m::none"] [recB]
def dB : Decl := cls 2 c!"n" c!"B" true false false [c!"class m::S"] [recS]
def dS : Decl := cls 3 c!"m" c!"S" true true false [] []
def dE : Decl := cls 4 c!"m" c!"E" false false false [] []
def dU : Decl := cls 5 c!"m" c!"U" false false true [] []
def dF : Decl := cls 6 c!"m" c!"F" false false false [] []

def offers : List Decl := [dA, dF, dU, dA, dB, dE, dS, dB]

end Ex

/-! ## C23 -/

/-- The registered declarations are the first one offered under each identifier, in order of first offers. -/
theorem C23_registered (offers : List Decl) : (register offers).binders = firstSeen offers := register_binders offers

/-- No identifier is registered twice. -/
theorem C23_no_repetition (offers : List Decl) : ((register offers).binders.map (·.ident)).Nodup := (RegInv.register offers).nodup

/-- Nothing offered is lost: its identifier is registered; nothing else is, and the order is that of the offers. -/
theorem C23_complete (offers : List Decl) :
    (∀ d ∈ offers, ∃ e ∈ (register offers).binders, e.ident = d.ident) ∧ (register offers).binders.Sublist offers := by
  rw [register_binders]
  exact ⟨fun d hd => firstSeen_ident hd, firstSeen_sublist offers⟩

/-- Offering a declaration whose identifier is already registered changes nothing. -/
theorem C23_offer_again (offers : List Decl) (d : Decl) (h : ∃ e ∈ offers, e.ident = d.ident) :
    register (offers ++ [d]) = register offers := by
  unfold register
  rw [List.foldl_append, List.foldl_cons, List.foldl_nil]
  have hr := RegInv.register offers
  unfold register at hr
  obtain ⟨e, he, hi⟩ := h
  obtain ⟨x, hx, hxi⟩ := (C23_complete offers).1 e he
  generalize hg : offers.foldl Registry.add Registry.empty = r at *
  have hx' : x ∈ r.binders := by rw [← hg]; exact hx
  unfold Registry.add
  rw [if_pos]
  simpa using (hr.ids d.ident).2 ⟨x, hx', hxi.trans hi⟩

/-- Later lookups of a type name find the last registered declaration of that type. -/
theorem C23_type_lookup (offers : List Decl) (t : Str) :
    (∀ j, (register offers).types t = some j →
      ∃ d, (register offers).binders[j]? = some d ∧ Denotes (register offers).binders t d) ∧
    ((register offers).types t = none → ∀ d ∈ (register offers).binders, d.typeName ≠ some t) :=
  ⟨(RegInv.register offers).some_ t, (RegInv.register offers).none_ t⟩

example : (register Ex.offers).binders = [Ex.dA, Ex.dF, Ex.dU, Ex.dB, Ex.dE, Ex.dS] := by
  rw [C23_registered]; decide
example : ∃ e ∈ Ex.offers, e.ident = Ex.dB.ident := ⟨Ex.dB, by decide, rfl⟩

/-! ## C24-C27 -/

/-- Generation binds exactly the least set of declarations closed under the requests; each gets the text of its own kind.
The hypothesis, that binding produces some text (for other declarations than Python builtins), is discharged for functions, classes and enums by `C25_function_text`,
`C25_class_text` and `C25_enum_text`. -/
theorem C24_least_closure (offers : List Decl) (hp : ∀ d ∈ offers, d.builtin = false → d.genCode ≠ []) (st : BindState)
    (h : Loop.Returns (bindStep (register offers)) (bindStart (register offers)) st) (i : Nat) (d : Decl)
    (hd : (register offers).binders[i]? = some d) :
    st.code i = (open Classical in if Bound (firstSeen offers) d then d.genCode else []) := by
  have hr := RegInv.register offers
  have hP : Productive (register offers) := by
    intro e he; rw [register_binders] at he; exact hp e (mem_firstSeen he)
  have hdone := bindDone_of_returns hr hP h
  have hiff := hdone.bound_iff hr hd
  rw [register_binders] at hiff
  split
  · rename_i hB
    obtain ⟨e, h1, h2, _⟩ := hdone.inv.code i (hiff.2 hB)
    rw [hd] at h1; cases h1
    exact h2
  · rename_i hB
    exact Classical.byContradiction fun hne => hB (hiff.1 hne)

/-- The passes stop after at most one more pass than there are declarations. -/
theorem C25_terminates (offers : List Decl) (hp : ∀ d ∈ offers, d.builtin = false → d.genCode ≠ []) :
    ∃ st, Loop.run (bindStep (register offers)) ((register offers).binders.length + 1) (bindStart (register offers)) = some st := by
  refine bind_terminates (RegInv.register offers) ?_
  intro e he; rw [register_binders] at he; exact hp e (mem_firstSeen he)

/-- Every declaration is bound at most once, and exactly those with generated text were bound. -/
theorem C25_once (offers : List Decl) (hp : ∀ d ∈ offers, d.builtin = false → d.genCode ≠ []) (st : BindState)
    (h : Loop.Returns (bindStep (register offers)) (bindStart (register offers)) st) :
    st.log.Nodup ∧ ∀ i, i ∈ st.log ↔ st.code i ≠ [] := by
  have hdone := bindDone_of_returns (RegInv.register offers) (by
    intro e he; rw [register_binders] at he; exact hp e (mem_firstSeen he)) h
  exact ⟨hdone.inv.logNodup, hdone.inv.log⟩

/-- The set of bound declarations does not depend on the order of discovery, provided two offers with the same identifier or
the same type name are offers of the same declaration. -/
theorem C26_order_independent (offers offers' : List Decl) (hperm : offers.Perm offers')
    (hid : ∀ a ∈ offers, ∀ b ∈ offers, a.ident = b.ident → a = b)
    (hty : ∀ a ∈ offers, ∀ b ∈ offers, a.typeName = b.typeName → a.typeName ≠ none → a = b)
    (hp : ∀ d ∈ offers, d.builtin = false → d.genCode ≠ []) (st st' : BindState)
    (h : Loop.Returns (bindStep (register offers)) (bindStart (register offers)) st)
    (h' : Loop.Returns (bindStep (register offers')) (bindStart (register offers')) st') (d : Decl) :
    (∃ i, (register offers).binders[i]? = some d ∧ st.code i ≠ []) ↔
    (∃ i, (register offers').binders[i]? = some d ∧ st'.code i ≠ []) := by
  have hmem : ∀ d, d ∈ firstSeen offers ↔ d ∈ offers := mem_firstSeen_iff hid
  have hid' : ∀ a ∈ offers', ∀ b ∈ offers', a.ident = b.ident → a = b :=
    fun a ha b hb => hid a (hperm.mem_iff.2 ha) b (hperm.mem_iff.2 hb)
  have hty' : ∀ a ∈ offers', ∀ b ∈ offers', a.typeName = b.typeName → a.typeName ≠ none → a = b :=
    fun a ha b hb => hty a (hperm.mem_iff.2 ha) b (hperm.mem_iff.2 hb)
  have hmem' : ∀ d, d ∈ firstSeen offers' ↔ d ∈ offers' := mem_firstSeen_iff hid'
  have hB : ∀ d, Bound (firstSeen offers) d ↔ Bound (firstSeen offers') d := by
    intro d
    constructor
    · exact bound_transfer (fun d => by rw [hmem, hmem']; exact hperm.mem_iff.1) hty hid hty' hid'
    · exact bound_transfer (fun d => by rw [hmem, hmem']; exact hperm.mem_iff.2) hty' hid' hty hid
  have char : ∀ (offers : List Decl), (∀ d ∈ offers, d.builtin = false → d.genCode ≠ []) → ∀ st,
      Loop.Returns (bindStep (register offers)) (bindStart (register offers)) st →
      ((∃ i, (register offers).binders[i]? = some d ∧ st.code i ≠ []) ↔ Bound (firstSeen offers) d) := by
    intro offers hp st h
    constructor
    · rintro ⟨i, hi, hc⟩
      rw [C24_least_closure offers hp st h i d hi] at hc
      split at hc
      · assumption
      · exact absurd rfl hc
    · intro hB
      obtain ⟨i, hi⟩ := List.mem_iff_getElem?.1 (Bound.mem hB)
      rw [← register_binders] at hi
      refine ⟨i, hi, ?_⟩
      rw [C24_least_closure offers hp st h i d hi, if_pos hB]
      exact hp d (mem_firstSeen (Bound.mem hB)) (Bound.eligible hB).2.2
  rw [char offers hp st h, char offers' (fun d hd => hp d (hperm.mem_iff.2 hd)) st' h', hB]

/-- Whatever requests it, a declaration that is skipped, not bindable or a Python builtin is never bound. -/
theorem C27_never_pulled_in (offers : List Decl) (hp : ∀ d ∈ offers, d.builtin = false → d.genCode ≠ []) (st : BindState)
    (h : Loop.Returns (bindStep (register offers)) (bindStart (register offers)) st) (i : Nat) (d : Decl)
    (hd : (register offers).binders[i]? = some d) (hbad : d.skipAsked = true ∨ d.canBind = false ∨ d.builtin = true) :
    st.code i = [] ∧ i ∉ st.log := by
  have h1 := C24_least_closure offers hp st h i d hd
  have hno : ¬ Bound (firstSeen offers) d := by
    intro hB
    obtain ⟨e1, e2, e3⟩ := Bound.eligible hB
    rcases hbad with hb | hb | hb
    · rw [e2] at hb; cases hb
    · rw [e1] at hb; cases hb
    · rw [e3] at hb; cases hb
  rw [if_neg hno] at h1
  exact ⟨h1, fun hl => ((C25_once offers hp st h).2 i).1 hl h1⟩

/-- The example run: `n::A`, `n::B` by request, `m::E` and `m::S` because they are mentioned; not `m::U`, not `m::F`. -/
example : (∀ d ∈ Ex.offers, d.genCode ≠ []) ∧
    ∃ st, Loop.Returns (bindStep (register Ex.offers)) (bindStart (register Ex.offers)) st ∧ st.log = [0, 3, 4, 5] :=
  ⟨by decide, _, ⟨3, rfl⟩, rfl⟩

example : (∀ a ∈ Ex.offers, ∀ b ∈ Ex.offers, a.ident = b.ident → a = b) ∧
    (∀ a ∈ Ex.offers, ∀ b ∈ Ex.offers, a.typeName = b.typeName → a.typeName ≠ none → a = b) := by decide

/-! ## C28-C30 -/

/-- Sorting only reorders. -/
theorem C28_permutation (l l' : List SortItem) (h : Loop.Returns sortStep l (some l')) : l'.Perm l := (sort_done h).1

/-- When sorting finishes, each class that a class needs has a class of that name before it. -/
theorem C29_bases_first (l l' : List SortItem) (h : Loop.Returns sortStep l (some l')) (u v : List SortItem) (b : SortItem)
    (hs : l' = u ++ b :: v) (c : Rec) (hn : Needs b c) : ∃ b' ∈ u, ∃ C, b'.decl.record = some C ∧ C.name = c.name :=
  mem_classNames.1 ((sort_done h).2 u b v hs (Nat.zero_le _) c hn)

/-- If class names are unique and the needed class is declared, it is its own declaration that comes before. -/
theorem C29_own_base_first (l l' : List SortItem) (h : Loop.Returns sortStep l (some l'))
    (huniq : ∀ x ∈ l, ∀ y ∈ l, ∀ X Y, x.decl.record = some X → y.decl.record = some Y → X.name = Y.name → X = Y)
    (u v : List SortItem) (b : SortItem) (hs : l' = u ++ b :: v) (c : Rec) (hn : Needs b c) (hd : Declared l c) :
    ∃ b' ∈ u, b'.decl.record = some c := by
  obtain ⟨b', hb', C, hC, hname⟩ := C29_bases_first l l' h u v b hs c hn
  obtain ⟨x, hx, hxc⟩ := hd
  have hm : b' ∈ l := (C28_permutation l l' h).mem_iff.1 (by rw [hs]; simp [hb'])
  have := huniq b' hm x hx C c hC hxc hname
  exact ⟨b', hb', by rw [hC, this]⟩

/-- Acyclic dependencies, all declared: sorting terminates and succeeds. -/
theorem C30_terminates (l : List SortItem) (hacyc : Acyclic l) (hdecl : ∀ b ∈ l, ∀ c, Needs b c → Declared l c) :
    ∃ l', Loop.Returns sortStep l (some l') := by
  obtain ⟨r, hr⟩ := sort_returns hacyc
  cases r with
  | some l' => exact ⟨l', hr⟩
  | none =>
    obtain ⟨b, hb, c, hn, hnd⟩ := sort_exit hr
    exact absurd (hdecl b hb c hn) hnd

/-- The error exit happens only if some needed class is not declared. -/
theorem C30_exit_only_if_missing (l : List SortItem) (h : Loop.Returns sortStep l none) :
    ∃ b ∈ l, ∃ c, Needs b c ∧ ¬ Declared l c := sort_exit h

/-- If a needed class is declared nowhere (nor any class of that name), no code is produced; on acyclic dependencies the tool
exits with an error. -/
theorem C30_missing_is_fatal (l : List SortItem) (b : SortItem) (hb : b ∈ l) (c : Rec) (hn : Needs b c)
    (hmiss : ∀ x ∈ l, ∀ C, x.decl.record = some C → C.name ≠ c.name) :
    (∀ l', ¬ Loop.Returns sortStep l (some l')) ∧ (Acyclic l → Loop.Returns sortStep l none) := by
  have h1 : ∀ l', ¬ Loop.Returns sortStep l (some l') := by
    intro l' h
    have hp := C28_permutation l l' h
    obtain ⟨u, v, e⟩ := List.append_of_mem (hp.mem_iff.2 hb)
    obtain ⟨b', hb', C, hC, hname⟩ := C29_bases_first l l' h u v b e c hn
    exact hmiss b' (hp.mem_iff.1 (by rw [e]; simp [hb'])) C hC hname
  refine ⟨h1, fun ha => ?_⟩
  obtain ⟨r, hr⟩ := sort_returns ha
  cases r with
  | none => exact hr
  | some l' => exact absurd hr (h1 l')

/-- A cycle among uniquely named, declared classes: sorting never terminates. -/
theorem C30_cycle_diverges (l : List SortItem) (huniq : (classNames l).Nodup) (hdecl : ∀ b ∈ l, ∀ c, Needs b c → Declared l c)
    (c : Rec) (hc : DependsPlus l c c) : Loop.Diverges sortStep l := by
  intro n
  cases hr : Loop.run sortStep n l with
  | none => rfl
  | some r =>
    have hret : Loop.Returns sortStep l r := ⟨n, hr⟩
    cases r with
    | none =>
      obtain ⟨b, hb, c, hn, hnd⟩ := sort_exit hret
      exact absurd (hdecl b hb c hn) hnd
    | some l' => exact absurd hc (no_cycle_of_done huniq hret c)

namespace Ex

/-- A bound declaration. -/
def bnd (d : Decl) : SortItem := ⟨d, d.genCode⟩

/-- `n::A` before its base `n::B` before its base `m::S`; `m::F` is not bound. -/
def items : List SortItem := [bnd dA, bnd dB, ⟨dF, []⟩, bnd dE, bnd dS]

def rank (c : Rec) : Nat := if c = recS then 0 else if c = recB then 1 else 2

theorem items_acyclic : Acyclic items := by
  have h1 : ∀ q p, DependsOn items q p → rank p < rank q := by
    rintro q p ⟨b, hb, hr, _, hd, _⟩
    simp only [items, List.mem_cons, List.not_mem_nil, or_false] at hb
    rcases hb with rfl | rfl | rfl | rfl | rfl <;>
      simp_all [rank, dA, dB, dE, dS, dF, cls, recB, recS, bnd, SortItem.deps] <;> (subst hr; decide)
  have h2 : ∀ q p, DependsPlus items q p → rank p < rank q := by
    intro q p h
    induction h with
    | one h => exact h1 _ _ h
    | more h _ ih => exact Nat.lt_trans ih (h1 _ _ h)
  exact fun c h => Nat.lt_irrefl _ (h2 c c h)

theorem items_declared : ∀ b ∈ items, ∀ c, Needs b c → Declared items c := by
  intro b hb c hn
  simp only [items, List.mem_cons, List.not_mem_nil, or_false] at hb
  rcases hb with rfl | rfl | rfl | rfl | rfl <;> simp [Needs, SortItem.deps, bnd, dA, dB, dE, dS, cls] at hn
  · obtain ⟨rfl, _⟩ := hn; exact ⟨bnd dB, by decide, by decide⟩
  · obtain ⟨rfl, _⟩ := hn; exact ⟨bnd dS, by decide, by decide⟩

def recA : Rec := ⟨1, c!"n::A", false⟩

/-- `n::A` and `n::B` derive from each other (impossible in C++; by template arguments or type names it is not). -/
def cycle : List SortItem := [bnd { dB with deps := [recA] }, bnd dA]

end Ex

example : Acyclic Ex.items ∧ (∀ b ∈ Ex.items, ∀ c, Needs b c → Declared Ex.items c) ∧
    Loop.Returns sortStep Ex.items (some [Ex.bnd Ex.dS, Ex.bnd Ex.dB, ⟨Ex.dF, []⟩, Ex.bnd Ex.dE, Ex.bnd Ex.dA]) :=
  ⟨Ex.items_acyclic, Ex.items_declared, 4, rfl⟩

example : Loop.Returns sortStep [Ex.bnd Ex.dA] none := ⟨1, rfl⟩

example : (classNames Ex.cycle).Nodup ∧ DependsPlus Ex.cycle Ex.recB Ex.recB :=
  ⟨by decide, .more (p := Ex.recA) ⟨Ex.bnd { Ex.dB with deps := [Ex.recA] }, by decide, by decide, by decide, by decide, rfl⟩
    (.one ⟨Ex.bnd Ex.dA, by decide, by decide, by decide, by decide, rfl⟩)⟩

end Binder
