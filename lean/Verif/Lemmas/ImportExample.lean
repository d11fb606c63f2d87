import Verif.Lemmas.ImportModule

/-!
# A test for `Compatible`, and programs for the examples of `Verif.Props.Import`
-/

namespace Binder

open Cxx Spec

/-- The enumerators of a call. -/
def Spec.Op.values : Op → List Str
  | .enum_ _ _ _ vs _ => vs
  | _ => []

/-- Different scopes, also taking into account that names are inherited. -/
def Apart (lin : Str → List Str) : Scope → Scope → Bool
  | .module a, .module b => a != b
  | .type q, .type t => !(q :: lin q).contains t
  | _, _ => true

/-- `Compatible` for a list of calls. -/
def CompatibleList (ops : List Op) (pairs : List (Str × Str)) (lin : Str → List Str) : Prop :=
  (∀ a ∈ ops, ∀ b ∈ ops, ∀ k ∈ a.typeName?.toList, ∀ x ∈ b.binds, x.1 = k → b = a) ∧
  (∀ a ∈ ops, ∀ b ∈ ops, ∀ x ∈ a.binds, ∀ y ∈ b.binds,
    decide (x.1 = y.1 → x.2 ≠ .object → y.2 ≠ .object → x.2 = y.2) = true) ∧
  (∀ a ∈ ops, ∀ b ∈ ops, ∀ x ∈ a.binds, ∀ y ∈ b.binds,
    decide (x.2 ≠ .object → x.1.2.head? ≠ some '_' → y.2 = .object → y.1.2 = x.1.2 → Apart lin x.1.1 y.1.1 = true) = true) ∧
  (∀ a ∈ ops, ∀ p ∈ pairs, a.typeName? ≠ some (.module p.1, moduleName p.2) ∧
    ((moduleName p.2).head? ≠ some '_' → ∀ x ∈ a.binds, x.2 ≠ .object → x.1 ≠ (.module p.1, moduleName p.2))) ∧
  (∀ a ∈ ops, ∀ q ∈ a.type?.toList, linearize lin q a.bases = some (lin q)) ∧
  (∀ a ∈ ops, a.values.Nodup)

instance (ops : List Op) (pairs : List (Str × Str)) (lin : Str → List Str) : Decidable (CompatibleList ops pairs lin) := by
  unfold CompatibleList
  refine @instDecidableAnd _ _ ?_ (@instDecidableAnd _ _ ?_ (@instDecidableAnd _ _ ?_ (@instDecidableAnd _ _ ?_ (@instDecidableAnd _ _ ?_ ?_)))) <;>
    infer_instance

theorem compatible_of_list {P : Op → Prop} {M : Str × Str → Prop} {ops : List Op} {pairs : List (Str × Str)} {lin : Str → List Str}
    (hP : ∀ op, P op → op ∈ ops) (hM : ∀ x, M x → x ∈ pairs) (h : CompatibleList ops pairs lin) : Compatible P M lin := by
  obtain ⟨h1, h2, h3, h4, h5, h6⟩ := h
  constructor
  · intro a b ha hb k hk kind hm
    exact h1 a (hP a ha) b (hP b hb) k (by rw [hk]; simp) _ hm rfl
  · intro a b ha hb k m m' hm hm'
    have := of_decide_eq_true (h2 a (hP a ha) b (hP b hb) _ hm _ hm') rfl (by simp) (by simp)
    injection this
  · intro a b ha hb ns n m hm hn hm'
    have := of_decide_eq_true (h3 a (hP a ha) b (hP b hb) _ hm _ hm') (by simp) hn rfl rfl
    simp [Apart] at this
  · intro a b ha hb q n m hm hn t ht hm'
    have := of_decide_eq_true (h3 a (hP a ha) b (hP b hb) _ hm _ hm') (by simp) hn rfl rfl
    simp only [Apart, Bool.not_eq_true', List.contains_eq_mem, decide_eq_false_iff_not] at this
    exact this ht
  · intro a ha p hp
    obtain ⟨g1, g2⟩ := h4 a (hP a ha) p (hM p hp)
    exact ⟨g1, fun hn m hm => g2 hn _ hm (by simp) rfl⟩
  · intro a ha q hq
    exact h5 a (hP a ha) q (by rw [hq]; simp)
  · intro s n q vs ex ha
    exact h6 _ (hP _ ha)

/-- The modules of a program whose namespaces are single names. -/
theorem hasModule_single {U : TransUnit} {names : List Str} (h : ∀ v, Reached U v → namespaceOf U.E v ∈ names)
    (hn : ∀ n ∈ names, ':' ∉ n) {x : Str × Str} (hx : HasModule U x) : x ∈ names.map fun n => (([], n) : Str × Str) := by
  obtain ⟨p, n⟩ := x
  obtain ⟨v, hr, e⟩ := hx
  have hm := h v hr
  simp only at e
  rcases e with e | e
  · split at e
    · rename_i hp
      subst hp
      rw [← e] at hm
      exact List.mem_map.2 ⟨n, hm, rfl⟩
    · exact absurd (by rw [← e]; simp) (hn _ hm)
  · refine absurd ?_ (hn _ hm)
    exact e.subset (by simp)

namespace Ex

/-- `namespace n { struct f {}; void f(); }` -/
def sameName : TransUnit :=
  { env := withClasses { exampleEnv with tyName := fun t => match t with | .record _ => c!"n::f" | t => exampleTyName t, cfg := { namespacesToBind := [c!"n"] } }
      [exampleIn c!"n" c!"f" none]
    visits := [.cls 0, .fn { exampleMethod c!"f" false (.basic 0) [] with qname := c!"n::f", incl := c!"<n.h>", method := none }]
    inSystem := fun _ => false, depth := 20 }

/-- `struct A { int f(); static int f(int); };` -/
def mixed : TransUnit :=
  { env := withClasses { exampleEnv with cfg := { namespacesToBind := [c!""] } }
      [{ exampleRecord with members := [.method (exampleMethod c!"f" false (.basic 0) []), .method { exampleMethod c!"f" false (.basic 0) [⟨c!"x", .basic 0, false⟩] with
          method := some { parent := 0, access := .pub, kind := .ordinary, isStatic := true, isConst := false, isVirtual := false,
                           isPure := false, isFinal := false, isCopyAssign := false, exceptionSpec := 0 } }] }]
    visits := [.cls 0], inSystem := fun _ => false, depth := 20 }

def diamondName : Ty → Str
  | .record i => [c!"A", c!"B", c!"D"].getD i []
  | t => exampleTyName t

/-- `struct A {}; struct B : virtual A {}; struct D : virtual A, B {};` -/
def diamond : TransUnit :=
  { env := withClasses { exampleEnv with tyName := diamondName, cfg := { namespacesToBind := [c!""] }, baseRank := id }
      [exampleRecord, { exampleRecord with name := c!"B", qname := c!"B", bases := [⟨.pub, true, some 0⟩] },
       { exampleRecord with name := c!"D", qname := c!"D", bases := [⟨.pub, true, some 0⟩, ⟨.pub, false, some 1⟩] }]
    visits := [.cls 0, .cls 1, .cls 2], inSystem := fun _ => false, depth := 20 }

/-- `struct A { struct N {}; };` with the entry `+binder A::N f`. -/
def memberBinder : TransUnit :=
  { env := withClasses { exampleEnv with
        cfg := { namespacesToBind := [c!""], binders := fun x => if x = c!"A::N" then some c!"f" else none }, nestRank := fun i => if i = 0 then 1 else 0 }
      [{ exampleRecord with members := [.nested 1] }, { exampleRecord with name := c!"N", qname := c!"A::N", access := .pub, outer := some 0 }]
    visits := [.cls 0, .cls 1], inSystem := fun _ => false, depth := 20 }

theorem asked {U : TransUnit} {v : Visit} (h : v ∈ firstOfName U.E (U.visits.filter U.offered)) (hb : CanBind U.E v)
    (hs : (match skipQuery U.E v with | .ok false => true | _ => false) = true) (hc : ¬ Converted U.E v) (hi : U.inSystem v = false)
    (ha : saysYes (bindQuery U.E v) = true) : Reached U v := by
  refine .asked (by rw [considered_eq]; exact h) ⟨hb, ?_, hc⟩ hi (saysYes_iff.1 ha)
  split at hs
  · assumption
  · cases hs

end Ex

end Binder
