import Verif.Spec.Dotted
import Verif.Lemmas.Surface
import Verif.Props.Surface
import Verif.Props.Lookup

/-!
# What names stand for after an import
-/

namespace Binder

open Cxx Spec

/-- The search order of each known type begins with the type. -/
def Heads (p : Py) : Prop := ∀ q l, p.types.lookup q = some l → l.head? = some q

theorem Heads.exec {p p' : Py} {op : Op} (hh : Heads p) (h : p.exec op = some p') : Heads p' := by
  rcases exec_types h with ⟨_, e⟩ | ⟨q, l, _, _, e, hl, _⟩
  · intro q l hq; rw [e] at hq; exact hh q l hq
  · intro q' l' hq
    rw [e, List.lookup_cons] at hq
    split at hq
    · rename_i he
      cases hq
      rw [eq_of_beq he]
      unfold linearize at hl
      obtain ⟨t, _, rfl⟩ := Option.map_eq_some_iff.1 hl
      rfl
    · exact hh q' l' hq

theorem Heads.find {p : Py} (hh : Heads p) {s : Scope} {n : Str} {k : Kind} (h : p.own s n = some k) (hs : p.has s = true) : p.find s n = some k := by
  cases s with
  | module ns => exact h
  | type q =>
    obtain ⟨l, hl⟩ := Option.isSome_iff_exists.1 (show (p.types.lookup q).isSome = true from hs)
    have := hh q l hl
    unfold Py.find
    simp only [hl, Option.getD_some]
    cases l with
    | nil => cases this
    | cons a l =>
      cases this
      rw [List.findSome?_cons, h]

theorem exec_has {p p' : Py} {op : Op} (h : p.exec op = some p') {s : Scope} (hs : p.has s = true) : p'.has s = true := by
  cases s with
  | module ns => rw [Py.has, (exec_scope h).1]; exact hs
  | type q =>
    rcases exec_types h with ⟨_, e⟩ | ⟨q', l, _, _, e, _, _⟩
    · rw [Py.has, e]; exact hs
    · rw [Py.has, e, List.lookup_cons]
      split
      · rfl
      · exact hs

theorem lookup_none_iff {α β : Type} [BEq α] [LawfulBEq α] {l : List (α × β)} {a : α} : l.lookup a = none ↔ ∀ b, (a, b) ∉ l := by
  constructor
  · intro h b hb
    have := lookup_isSome_of_mem hb
    rw [h] at this
    cases this
  · intro h
    cases e : l.lookup a with
    | none => rfl
    | some b => exact absurd (lookup_mem e) (h b)

/-- A call for a name that is taken by a class, an enumeration or a module. -/
theorem gives_taken {p p' : Py} {op : Op} (hh : Heads p) (h : p.exec op = some p') {s : Scope} {n : Str} (ho : p.own s n = some .object)
    (hs : p.has s = true) {t : Thing} (hg : ((s, n), t) ∈ op.gives) : op.takes s n := by
  cases op with
  | class_ s' n' q bs =>
    simp only [Op.gives, List.mem_singleton, Prod.mk.injEq] at hg
    obtain ⟨⟨rfl, rfl⟩, _⟩ := hg
    have := exec_free h (k := (s, n)) rfl
    rw [ho] at this
    cases this
  | enum_ s' n' q vs ex =>
    simp only [Op.gives, List.mem_append, List.mem_map, List.mem_singleton, Prod.mk.injEq] at hg
    rcases hg with (hg | ⟨v, _, ⟨rfl, _⟩, _⟩) | ⟨⟨rfl, rfl⟩, _⟩
    · split at hg
      · rename_i hx
        obtain ⟨v, hv, e⟩ := List.mem_map.1 hg
        simp only [Prod.mk.injEq] at e
        obtain ⟨⟨rfl, rfl⟩, _⟩ := e
        exact ⟨rfl, hx, hv⟩
      · cases hg
    · rcases exec_types h with ⟨e, _⟩ | ⟨q', l, e, hnew, _⟩
      · cases e
      · cases e
        rw [Py.has, hnew] at hs
        cases hs
    · have := exec_free h (k := (s, n)) rfl
      rw [ho] at this
      cases this
  | property s' n' =>
    simp only [Op.gives, List.mem_singleton, Prod.mk.injEq] at hg
    exact ⟨hg.1.1.symm, hg.1.2.symm⟩
  | function s' n' m =>
    simp only [Op.gives, List.mem_singleton, Prod.mk.injEq] at hg
    obtain ⟨⟨rfl, rfl⟩, _⟩ := hg
    refine ⟨rfl, rfl, ?_⟩
    simp only [Py.exec, hh.find ho hs] at h
    split at h
    · rename_i hc
      simp only [Bool.and_eq_true, Bool.or_eq_true, bne_self_eq_false, Bool.false_eq_true, false_or, beq_iff_eq] at hc
      exact hc.1.2
    · cases h
  | calls s' => cases hg
  | binder ns q => cases hg

/-- What calls bind, they give a name to. -/
theorem gives_of_binds {op : Op} {s : Scope} {n : Str} {k : Kind} (h : ((s, n), k) ∈ op.binds) : ∃ t, ((s, n), t) ∈ op.gives := by
  cases op with
  | class_ s' n' q bs => simp only [Op.binds, List.mem_singleton, Prod.mk.injEq] at h; exact ⟨.type q, by simp [Op.gives, h]⟩
  | enum_ s' n' q vs ex =>
    simp only [Op.binds, List.mem_cons, Prod.mk.injEq] at h
    rcases h with ⟨⟨rfl, rfl⟩, _⟩ | h
    · exact ⟨.type q, by simp [Op.gives]⟩
    · split at h
      · rename_i hx
        obtain ⟨v, hv, e⟩ := List.mem_map.1 h
        simp only [Prod.mk.injEq] at e
        obtain ⟨⟨rfl, rfl⟩, _⟩ := e
        exact ⟨.value q v, by simp [Op.gives, hx, hv]⟩
      · cases h
  | property s' n' => simp only [Op.binds, List.mem_singleton, Prod.mk.injEq] at h; exact ⟨.prop, by simp [Op.gives, h]⟩
  | function s' n' m => simp only [Op.binds, List.mem_singleton, Prod.mk.injEq] at h; exact ⟨.func, by simp [Op.gives, h]⟩
  | calls s' => cases h
  | binder ns q => cases h

/-- As long as no call takes the name, it stays. -/
theorem taken_stays (ops : List Op) : ∀ {p p' : Py} {s : Scope} {n : Str}, Heads p → p.execAll ops = some p' → p.own s n = some .object →
    p.has s = true → (∀ op ∈ ops, ¬ op.takes s n) → ∀ op ∈ ops, op.gives.lookup (s, n) = none := by
  induction ops with
  | nil => intro p p' s n _ _ _ _ _ op h; cases h
  | cons x ops ih =>
    intro p p' s n hh h ho hs hno op hop
    obtain ⟨p1, h1, h2⟩ := execAll_cons h
    have hx : ∀ t, ((s, n), t) ∉ x.gives := fun t ht => hno x List.mem_cons_self (gives_taken hh h1 ho hs ht)
    rcases List.mem_cons.1 hop with rfl | hop
    · exact lookup_none_iff.2 hx
    · refine ih (hh.exec h1) h2 ?_ (exec_has h1 hs) (fun o ho => hno o (List.mem_cons_of_mem _ ho)) op hop
      rcases exec_own h1 s n with ⟨k, _, hk⟩ | ⟨_, e⟩
      · obtain ⟨t, ht⟩ := gives_of_binds hk
        exact absurd ht (hx t)
      · rw [e, ho]

theorem execAll_append {a b : List Op} : ∀ {p p' : Py}, p.execAll (a ++ b) = some p' → ∃ p1, p.execAll a = some p1 ∧ p1.execAll b = some p' := by
  induction a with
  | nil => intro p p' h; exact ⟨p, rfl, h⟩
  | cons x a ih =>
    intro p p' h
    obtain ⟨p1, h1, h2⟩ := execAll_cons h
    obtain ⟨p2, h3, h4⟩ := ih h2
    refine ⟨p2, ?_, h4⟩
    rw [Py.execAll, h1]
    exact h3

theorem Heads.execAll (ops : List Op) : ∀ {p p' : Py}, Heads p → p.execAll ops = some p' → Heads p' := by
  induction ops with
  | nil => intro p p' hh h; cases h; exact hh
  | cons x ops ih =>
    intro p p' hh h
    obtain ⟨p1, h1, h2⟩ := execAll_cons h
    exact ih (hh.exec h1) h2

theorem findSome?_reverse_split {α β : Type} {f : α → Option β} {a b : List α} {x : α} {y : β} (hx : f x = some y)
    (hb : ∀ z ∈ b, f z = none) : (a ++ x :: b).reverse.findSome? f = some y := by
  rw [List.reverse_append, List.findSome?_append, List.reverse_cons, List.findSome?_append]
  have : b.reverse.findSome? f = none := by
    rw [List.findSome?_eq_none_iff]
    intro z hz
    exact hb z (List.mem_reverse.1 hz)
  rw [this]
  simp [hx]

/-- The name of a class or an enumeration. -/
theorem attribute_type {pairs : List (Str × Str)} {ops : List Op} {p : Py} (h : importModule pairs ops = some p) {op : Op} (hop : op ∈ ops)
    {s : Scope} {n q : Str} (hk : op.typeName? = some (s, n)) (hq : op.type? = some q) (hno : ∀ op ∈ ops, ¬ op.takes s n) :
    standsFor pairs ops s n = some (.type q) := by
  obtain ⟨p0, h0, h1⟩ := importModule_some h
  obtain ⟨ht, _, _⟩ := makeModules_state h0
  have hh0 : Heads p0 := by intro q l hl; rw [ht] at hl; cases hl
  obtain ⟨a, b, rfl⟩ := List.append_of_mem hop
  obtain ⟨p1, e1, e2⟩ := execAll_append h1
  obtain ⟨p2, e2, e3⟩ := execAll_cons e2
  have hh1 := hh0.execAll _ e1
  have hs := (exec_scope e2).2
  rw [← (type_name hk).1] at hs
  have hown : p2.own s n = some .object := by
    rcases exec_own e2 s n with ⟨k, e, hk'⟩ | ⟨hno', _⟩
    · rw [e]
      cases k with
      | object => rfl
      | func m => rw [binds_func hk'] at hk; cases hk
    · exact absurd (type_name hk).2 (hno' _)
  have hb := taken_stays b (hh1.exec e2) e3 hown (exec_has e2 hs) (fun o ho => hno o (by simp [ho]))
  have hx : op.gives.lookup (s, n) = some (.type q) := by
    have hno := hno op (by simp)
    cases op with
    | class_ => cases hk; cases hq; simp [Op.gives]
    | enum_ s' n' q' vs ex =>
      cases hk; cases hq
      have hpre : ((if ex then vs.map fun v => ((s, v), Thing.value q v) else []) ++ (vs.map fun v => ((Scope.type q, v), Thing.value q v))).lookup (s, n) = none := by
        refine lookup_none_iff.2 ?_
        intro t ht
        rcases List.mem_append.1 ht with ht | ht
        · split at ht
          · rename_i hx
            obtain ⟨v, hv, e⟩ := List.mem_map.1 ht
            cases e
            exact hno ⟨rfl, hx, hv⟩
          · cases ht
        · obtain ⟨v, hv, e⟩ := List.mem_map.1 ht
          cases e
          rcases exec_types e2 with ⟨e, _⟩ | ⟨q', l, e, hnew, _⟩
          · cases e
          · cases e
            rw [Py.has, hnew] at hs
            cases hs
      rw [Op.gives]
      rcases lookup_append_cases ((if ex then vs.map fun v => ((s, v), Thing.value q v) else []) ++ (vs.map fun v => ((Scope.type q, v), Thing.value q v)))
        [((s, n), Thing.type q)] (s, n) with ⟨x, _, hm⟩ | ⟨_, e⟩
      · exact absurd hm (lookup_none_iff.1 hpre x)
      · rw [e]; simp
    | property => cases hk
    | function => cases hk
    | calls => cases hk
    | binder => cases hk
  unfold standsFor
  rw [findSome?_reverse_split (f := fun op : Op => op.gives.lookup _) hx hb]

theorem makeModules_parent {pairs : List (Str × Str)} : ∀ {p p' : Py}, makeModules p pairs = some p' → ∀ x ∈ pairs, x.1 ∈ p'.modules := by
  induction pairs with
  | nil => intro p p' _ x hx; cases hx
  | cons y pairs ih =>
    obtain ⟨a, b⟩ := y
    intro p p' h x hx
    rw [makeModules] at h
    split at h
    · rename_i hc
      rcases List.mem_cons.1 hx with rfl | hx
      · rw [List.contains_iff_mem] at hc
        exact ((makeModules_state h).2.1 a).2 (.inl (List.mem_cons_of_mem _ hc))
      · exact ih h x hx
    · cases h

/-- The name of a module. -/
theorem attribute_module {pairs : List (Str × Str)} {ops : List Op} {p : Py} (h : importModule pairs ops = some p) {x : Str × Str} (hx : x ∈ pairs)
    (huniq : ∀ y ∈ pairs, y.1 = x.1 → moduleName y.2 = moduleName x.2 → y.2 = x.2)
    (hno : ∀ op ∈ ops, ¬ op.takes (.module x.1) (moduleName x.2)) :
    standsFor pairs ops (.module x.1) (moduleName x.2) = some (.module (fullName x)) := by
  obtain ⟨p0, h0, h1⟩ := importModule_some h
  obtain ⟨ht, hm, h3⟩ := makeModules_state h0
  have hh0 : Heads p0 := by intro q l hl; rw [ht] at hl; cases hl
  have hown : p0.own (.module x.1) (moduleName x.2) = some .object := by
    rcases h3 (.module x.1) (moduleName x.2) with ⟨e, _⟩ | ⟨hno', _⟩
    · exact e
    · exact absurd ⟨rfl, rfl⟩ (hno' x hx)
  have hhas : p0.has (.module x.1) = true := by
    rw [Py.has, List.contains_iff_mem]
    exact makeModules_parent h0 x hx
  have hb := taken_stays ops hh0 h1 hown hhas hno
  unfold standsFor
  have : ops.reverse.findSome? (fun op => op.gives.lookup (.module x.1, moduleName x.2)) = none := by
    rw [List.findSome?_eq_none_iff]
    intro z hz
    exact hb z (List.mem_reverse.1 hz)
  rw [this]
  simp only
  have hsome : (pairs.reverse.findSome? (moduleGives (.module x.1) (moduleName x.2))).isSome = true := by
    rw [List.findSome?_isSome_iff]
    exact ⟨x, List.mem_reverse.2 hx, by simp [moduleGives]⟩
  obtain ⟨t, ht⟩ := Option.isSome_iff_exists.1 hsome
  rw [ht]
  obtain ⟨y, hy, e⟩ := List.exists_of_findSome?_eq_some ht
  unfold moduleGives at e
  split at e
  · rename_i hc
    cases e
    have h1 : y.1 = x.1 := by have := hc.1; injection this with this; exact this.symm
    rw [show y = x from Prod.ext h1 (huniq y (List.mem_reverse.1 hy) h1 hc.2.symm)]
  · cases e

/-- The enumerators in the scope of the enumeration. -/
theorem attribute_exported {pairs : List (Str × Str)} {ops : List Op} {p : Py} (h : importModule pairs ops = some p) {s : Scope} {n q : Str}
    {vs : List Str} (hop : Op.enum_ s n q vs true ∈ ops) {v : Str} (hv : v ∈ vs)
    (hno : ∀ op ∈ ops, op.takes s v → op = .enum_ s n q vs true) : standsFor pairs ops s v = some (.value q v) := by
  obtain ⟨p0, h0, h1⟩ := importModule_some h
  obtain ⟨ht, _, _⟩ := makeModules_state h0
  have hh0 : Heads p0 := by intro q l hl; rw [ht] at hl; cases hl
  have hnd := types_once _ h1
  obtain ⟨a, b, rfl⟩ := List.append_of_mem hop
  obtain ⟨p1, e1, e2⟩ := execAll_append h1
  obtain ⟨p2, e2, e3⟩ := execAll_cons e2
  have hh1 := hh0.execAll _ e1
  have hs := (exec_scope e2).2
  have hown : p2.own s v = some .object := by
    rcases exec_own e2 s v with ⟨k, e, hk'⟩ | ⟨hno', _⟩
    · rw [e]
      cases k with
      | object => rfl
      | func m => have := binds_func hk'; cases this
    · exact absurd (show ((s, v), Kind.object) ∈ _ by simp [Op.binds, hv]) (hno' _)
  have hnb : Op.enum_ s n q vs true ∉ b := by
    intro hb
    rw [knownTypes_append, List.nodup_append] at hnd
    have := hnd.2.1
    rw [knownTypes, List.filterMap_cons] at this
    simp only [Op.type?, List.nodup_cons] at this
    exact this.1 (List.mem_filterMap.2 ⟨_, hb, rfl⟩)
  have hb := taken_stays b (hh1.exec e2) e3 hown (exec_has e2 hs) (fun o ho htk => hnb (hno o (by simp [ho]) htk ▸ ho))
  have hx : (Op.enum_ s n q vs true).gives.lookup (s, v) = some (.value q v) := by
    have : ((vs.map fun v => ((s, v), Thing.value q v)) ++ ((vs.map fun v => ((Scope.type q, v), Thing.value q v)) ++ [((s, n), Thing.type q)])).lookup (s, v) =
        some (.value q v) := by
      rcases lookup_append_cases (vs.map fun v => ((s, v), Thing.value q v)) ((vs.map fun v => ((Scope.type q, v), Thing.value q v)) ++ [((s, n), Thing.type q)]) (s, v) with
        ⟨x, e, hm⟩ | ⟨hm, _⟩
      · obtain ⟨w, _, ew⟩ := List.mem_map.1 hm
        cases ew
        exact e
      · exact absurd (List.mem_map.2 ⟨v, hv, rfl⟩) (hm _)
    simpa [Op.gives, List.append_assoc] using this
  unfold standsFor
  rw [findSome?_reverse_split (f := fun op : Op => op.gives.lookup _) hx hb]

/-- The enumerators in the Python class of the enumeration. -/
theorem attribute_enumerator {pairs : List (Str × Str)} {ops : List Op} {p : Py} (h : importModule pairs ops = some p) {s : Scope} {n q : Str}
    {vs : List Str} {ex : Bool} (hop : Op.enum_ s n q vs ex ∈ ops) {v : Str} (hv : v ∈ vs) (hno : ∀ op ∈ ops, op.scope ≠ .type q) :
    standsFor pairs ops (.type q) v = some (.value q v) := by
  obtain ⟨p0, h0, h1⟩ := importModule_some h
  have hnd := types_once _ h1
  have hsn : s ≠ .type q := hno _ hop
  obtain ⟨a, b, rfl⟩ := List.append_of_mem hop
  have hb : ∀ op ∈ b, op.gives.lookup (Scope.type q, v) = none := by
    intro op hb
    refine lookup_none_iff.2 ?_
    intro t ht
    have hsc := hno op (by simp [hb])
    cases op with
    | class_ s' n' q' bs => simp only [Op.gives, List.mem_singleton, Prod.mk.injEq] at ht; exact hsc ht.1.1.symm
    | enum_ s' n' q' vs' ex' =>
      simp only [Op.gives, List.mem_append, List.mem_map, List.mem_singleton, Prod.mk.injEq] at ht
      rcases ht with (ht | ⟨v', _, ⟨e, _⟩, _⟩) | ⟨⟨e, _⟩, _⟩
      · split at ht
        · obtain ⟨v', hv', e⟩ := List.mem_map.1 ht
          simp only [Prod.mk.injEq] at e
          exact hsc e.1.1
        · cases ht
      · injection e with e
        subst e
        rw [knownTypes_append, List.nodup_append] at hnd
        have := hnd.2.1
        rw [knownTypes, List.filterMap_cons] at this
        simp only [Op.type?, List.nodup_cons] at this
        exact this.1 (List.mem_filterMap.2 ⟨_, hb, rfl⟩)
      · exact hsc e.symm
    | property s' n' => simp only [Op.gives, List.mem_singleton, Prod.mk.injEq] at ht; exact hsc ht.1.1.symm
    | function s' n' m => simp only [Op.gives, List.mem_singleton, Prod.mk.injEq] at ht; exact hsc ht.1.1.symm
    | calls s' => cases ht
    | binder ns q => cases ht
  have hx : (Op.enum_ s n q vs ex).gives.lookup (Scope.type q, v) = some (.value q v) := by
    rw [Op.gives, List.append_assoc]
    rcases lookup_append_cases (if ex = true then vs.map fun v => ((s, v), Thing.value q v) else [])
      ((vs.map fun v => ((Scope.type q, v), Thing.value q v)) ++ [((s, n), Thing.type q)]) (Scope.type q, v) with ⟨x, e, hm⟩ | ⟨_, e⟩
    · split at hm
      · obtain ⟨w, _, ew⟩ := List.mem_map.1 hm
        cases ew
        exact absurd rfl hsn
      · cases hm
    · rw [e]
      rcases lookup_append_cases (vs.map fun v => ((Scope.type q, v), Thing.value q v)) [((s, n), Thing.type q)] (Scope.type q, v) with ⟨x, e, hm⟩ | ⟨hm, _⟩
      · obtain ⟨w, _, ew⟩ := List.mem_map.1 hm
        cases ew
        exact e
      · exact absurd (List.mem_map.2 ⟨v, hv, rfl⟩) (hm _)
  unfold standsFor
  rw [findSome?_reverse_split (f := fun op : Op => op.gives.lookup _) hx hb]

/-- A call for a name that is taken. -/
theorem gives_used {p p' : Py} {op : Op} (h : p.exec op = some p') {s : Scope} {n : Str} (ho : (p.own s n).isSome = true)
    (hs : p.has s = true) {t : Thing} (hg : ((s, n), t) ∈ op.gives) : op.takes s n ∨ ∃ m, op = .function s n m := by
  cases op with
  | class_ s' n' q bs =>
    simp only [Op.gives, List.mem_singleton, Prod.mk.injEq] at hg
    obtain ⟨⟨rfl, rfl⟩, _⟩ := hg
    have := exec_free h (k := (s, n)) rfl
    rw [this] at ho
    cases ho
  | enum_ s' n' q vs ex =>
    simp only [Op.gives, List.mem_append, List.mem_map, List.mem_singleton, Prod.mk.injEq] at hg
    rcases hg with (hg | ⟨v, _, ⟨rfl, _⟩, _⟩) | ⟨⟨rfl, rfl⟩, _⟩
    · split at hg
      · rename_i hx
        obtain ⟨v, hv, e⟩ := List.mem_map.1 hg
        simp only [Prod.mk.injEq] at e
        obtain ⟨⟨rfl, rfl⟩, _⟩ := e
        exact .inl ⟨rfl, hx, hv⟩
      · cases hg
    · rcases exec_types h with ⟨e, _⟩ | ⟨q', l, e, hnew, _⟩
      · cases e
      · cases e
        rw [Py.has, hnew] at hs
        cases hs
    · have := exec_free h (k := (s, n)) rfl
      rw [this] at ho
      cases ho
  | property s' n' =>
    simp only [Op.gives, List.mem_singleton, Prod.mk.injEq] at hg
    exact .inl ⟨hg.1.1.symm, hg.1.2.symm⟩
  | function s' n' m =>
    simp only [Op.gives, List.mem_singleton, Prod.mk.injEq] at hg
    obtain ⟨⟨rfl, rfl⟩, _⟩ := hg
    exact .inr ⟨m, rfl⟩
  | calls s' => cases hg
  | binder ns q => cases hg

theorem function_stays (ops : List Op) : ∀ {p p' : Py} {s : Scope} {n : Str}, p.execAll ops = some p' → (p.own s n).isSome = true →
    p.has s = true → (∀ op ∈ ops, op.takes s n → ∃ m, op = .function s n m) → ∀ op ∈ ops, ∀ t, op.gives.lookup (s, n) = some t → t = .func := by
  induction ops with
  | nil => intro p p' s n _ _ _ _ op h; cases h
  | cons x ops ih =>
    intro p p' s n h ho hs hno op hop t ht
    obtain ⟨p1, h1, h2⟩ := execAll_cons h
    rcases List.mem_cons.1 hop with rfl | hop
    · have hg := lookup_mem ht
      have : ∃ m, op = .function s n m := by
        rcases gives_used h1 ho hs hg with h' | h'
        · exact hno op List.mem_cons_self h'
        · exact h'
      obtain ⟨m, rfl⟩ := this
      simp only [Op.gives, List.mem_singleton, Prod.mk.injEq] at hg
      exact hg.2
    · refine ih h2 ?_ (exec_has h1 hs) (fun o ho => hno o (List.mem_cons_of_mem _ ho)) op hop t ht
      rcases exec_own h1 s n with ⟨k, e, _⟩ | ⟨_, e⟩
      · rw [e]; rfl
      · rw [e]; exact ho

/-- The name of a function. -/
theorem attribute_function {pairs : List (Str × Str)} {ops : List Op} {p : Py} (h : importModule pairs ops = some p) {s : Scope} {n : Str} {m : Bool}
    (hop : Op.function s n m ∈ ops) (hno : ∀ op ∈ ops, op.takes s n → ∃ m, op = .function s n m) : standsFor pairs ops s n = some .func := by
  obtain ⟨p0, h0, h1⟩ := importModule_some h
  obtain ⟨a, b, rfl⟩ := List.append_of_mem hop
  obtain ⟨p1, e1, e2⟩ := execAll_append h1
  obtain ⟨p2, e2, e3⟩ := execAll_cons e2
  have hs := (exec_scope e2).2
  have hown : (p2.own s n).isSome = true := by
    rcases exec_own e2 s n with ⟨k, e, hk'⟩ | ⟨hno', _⟩
    · rw [e]; rfl
    · exact absurd (show ((s, n), Kind.func m) ∈ _ by simp [Op.binds]) (hno' _)
  have hb := function_stays b e3 hown (exec_has e2 hs) (fun o ho => hno o (by simp [ho]))
  unfold standsFor
  rw [List.reverse_append, List.findSome?_append, List.reverse_cons, List.findSome?_append]
  cases e : b.reverse.findSome? fun op : Op => op.gives.lookup (s, n) with
  | some t =>
    obtain ⟨y, hy, ey⟩ := List.exists_of_findSome?_eq_some e
    rw [hb y (List.mem_reverse.1 hy) t ey]
    rfl
  | none => simp [Op.gives]

theorem filterMap_nodup_eq {α β : Type} {f : α → Option β} {l : List α} (h : (l.filterMap f).Nodup) {x y : α} {b : β} (hx : x ∈ l) (hy : y ∈ l)
    (ex : f x = some b) (ey : f y = some b) : x = y := by
  induction l with
  | nil => cases hx
  | cons a l ih =>
    rw [List.filterMap_cons] at h
    have hl : (l.filterMap f).Nodup := by
      split at h
      · exact h
      · exact (List.nodup_cons.1 h).2
    rcases List.mem_cons.1 hx with rfl | hx' <;> rcases List.mem_cons.1 hy with rfl | hy'
    · rfl
    · rw [ex] at h
      exact absurd (List.mem_filterMap.2 ⟨y, hy', ey⟩) (List.nodup_cons.1 h).1
    · rw [ey] at h
      exact absurd (List.mem_filterMap.2 ⟨x, hx', ex⟩) (List.nodup_cons.1 h).1
    · exact ih hl hx' hy'

/-- The enumerators that are not exported. -/
theorem not_exported {pairs : List (Str × Str)} {ops : List Op} {p : Py} (h : importModule pairs ops = some p) {s : Scope} {n q : Str}
    {vs : List Str} (hop : Op.enum_ s n q vs false ∈ ops) (v : Str) : standsFor pairs ops s v ≠ some (.value q v) := by
  intro hv
  obtain ⟨p0, h0, h1⟩ := importModule_some h
  have hnd := types_once _ h1
  unfold standsFor at hv
  split at hv
  · rename_i t ht
    cases hv
    obtain ⟨y, hy, ey⟩ := List.exists_of_findSome?_eq_some ht
    have hy := List.mem_reverse.1 hy
    have hg := lookup_mem ey
    cases y with
    | class_ => simp [Op.gives] at hg
    | property => simp [Op.gives] at hg
    | function => simp [Op.gives] at hg
    | calls => cases hg
    | binder => cases hg
    | enum_ s' n' q' vs' ex' =>
      have hq : q = q' := by
        simp only [Op.gives, List.mem_append, List.mem_map, List.mem_singleton, Prod.mk.injEq, Thing.value.injEq] at hg
        rcases hg with (hg | ⟨_, _, _, e, _⟩) | ⟨_, e⟩
        · split at hg
          · obtain ⟨_, _, e⟩ := List.mem_map.1 hg
            simp only [Prod.mk.injEq, Thing.value.injEq] at e
            exact e.2.1.symm
          · cases hg
        · exact e.symm
        · cases e
      subst hq
      have := filterMap_nodup_eq (b := q) (f := Op.type?) hnd hop hy rfl rfl
      cases this
      simp only [Op.gives, Bool.false_eq_true, if_false, List.nil_append, List.mem_append, List.mem_map, List.mem_singleton, Prod.mk.injEq] at hg
      rcases hg with ⟨w, _, ⟨rfl, _⟩, _⟩ | ⟨_, e⟩
      · obtain ⟨a, b, rfl⟩ := List.append_of_mem hop
        obtain ⟨p1, e1, e2⟩ := execAll_append h1
        obtain ⟨p2, e2, e3⟩ := execAll_cons e2
        have hs := (exec_scope e2).2
        rcases exec_types e2 with ⟨e, _⟩ | ⟨q', l, e, hnew, _⟩
        · cases e
        · cases e
          rw [Op.scope, Py.has, hnew] at hs
          cases hs
      · cases e
  · obtain ⟨y, hy, ey⟩ := List.exists_of_findSome?_eq_some hv
    unfold moduleGives at ey
    split at ey
    · cases ey
    · cases ey

/-! ## Dotted names -/

/-- The steps lead from a scope to another. -/
def Leads (pairs : List (Str × Str)) (ops : List Op) : Scope → List (Scope × Str) → Scope → Prop
  | s, [], s' => s = s'
  | s, (s1, n) :: steps, s' => s1 = s ∧ ∃ s2, (standsFor pairs ops s n).bind Thing.scope? = some s2 ∧ Leads pairs ops s2 steps s'

theorem Leads.append {pairs : List (Str × Str)} {ops : List Op} : ∀ {a b : List (Scope × Str)} {s s' s'' : Scope}, Leads pairs ops s a s' →
    Leads pairs ops s' b s'' → Leads pairs ops s (a ++ b) s'' := by
  intro a
  induction a with
  | nil => intro b s s' s'' h h'; cases h; exact h'
  | cons x a ih =>
    intro b s s' s'' h h'
    obtain ⟨s1, n⟩ := x
    obtain ⟨h1, s2, h2, h3⟩ := h
    exact ⟨h1, s2, h2, ih h3 h'⟩

theorem Leads.dotted {pairs : List (Str × Str)} {ops : List Op} : ∀ {a : List (Scope × Str)} {s s' : Scope} {b : List Str}, Leads pairs ops s a s' → b ≠ [] →
    dotted pairs ops s (a.map (·.2) ++ b) = dotted pairs ops s' b := by
  intro a
  induction a with
  | nil => intro s s' b h _; cases h; rfl
  | cons x a ih =>
    intro s s' b h hb
    obtain ⟨s1, n⟩ := x
    obtain ⟨h1, s2, h2, h3⟩ := h
    rw [← ih h3 hb]
    rw [List.map_cons, List.cons_append]
    cases e : a.map (·.2) ++ b with
    | nil => exact absurd (List.append_eq_nil_iff.1 e).2 hb
    | cons m ms =>
      simp only [Spec.dotted]
      rw [h2]

theorem fullName_join {pre : List Str} {c : Str} (h : ∀ x ∈ pre, IsComponent x) : fullName (joinNs pre, c) = joinNs (pre ++ [c]) := by
  unfold fullName
  rw [joinNs_concat]
  simp only [joinNs_eq_nil h]

theorem leads_namespaces {pairs : List (Str × Str)} {ops : List Op} (cs : List Str) : ∀ (pre : List Str), (∀ x ∈ pre ++ cs, IsComponent x) →
    (∀ a c b, cs = a ++ c :: b → standsFor pairs ops (.module (joinNs (pre ++ a))) (moduleName c) = some (.module (fullName (joinNs (pre ++ a), c)))) →
    Leads pairs ops (.module (joinNs pre)) (nsSteps pre cs) (.module (joinNs (pre ++ cs))) := by
  induction cs with
  | nil => intro pre _ _; rw [List.append_nil]; rfl
  | cons c cs ih =>
    intro pre hc hs
    refine ⟨rfl, .module (joinNs (pre ++ [c])), ?_, ?_⟩
    · have := hs [] c cs rfl
      rw [List.append_nil] at this
      rw [this, fullName_join (fun x hx => hc x (List.mem_append_left _ hx))]
      rfl
    · have := ih (pre ++ [c]) (by simpa using hc) (by
        intro a d b e
        have := hs (c :: a) d b (by rw [e]; rfl)
        simpa using this)
      simpa using this

/-! ## The calls of a declaration -/

theorem scope_class (E : Env) (n : Nat) : ∀ (outer : Scope) (i : Nat) (op : Op), op ∈ classOpsF E n outer i → ∀ q, op.scope = .type q →
    outer = .type q ∨ ∃ s name bs, Op.class_ s name q bs ∈ classOpsF E n outer i := by
  induction n with
  | zero => intro outer i op h; cases h
  | succ n ih =>
    intro outer i op h q hq
    simp only [classOpsF] at h ⊢
    split at h
    · cases h
    · rename_i hbi
      rw [if_neg hbi]
      split at h
      · rw [List.mem_singleton] at h; subst h; cases hq
      · rename_i hx
        rw [if_neg hx]
        have hself : (if (E.cls i).isAnonymous = true then outer else .type (classQualifiedName E (E.cls i))) = .type q →
            outer = .type q ∨ ∃ s name bs, Op.class_ s name q bs ∈ (if (E.cls i).isAnonymous then [] else
              [Op.class_ (if (E.cls i).outer.isSome then outer else .module (nsOf E (E.cls i).qname (E.cls i).name)) (pythonClassName E (E.cls i))
                (classQualifiedName E (E.cls i)) ((boundBases E (E.cls i)).map fun j => classQualifiedName E (E.cls j))]) := by
          intro e
          split at e
          · exact .inl e
          · rename_i ha
            injection e with e
            rw [if_neg ha, ← e]
            exact .inr ⟨_, _, _, List.mem_singleton.2 rfl⟩
        rw [List.mem_append, List.mem_append] at h
        rcases h with (h | h) | h
        · split at h
          · cases h
          · rw [List.mem_singleton] at h
            subst h
            simp only [Op.scope] at hq
            split at hq
            · exact .inl hq
            · cases hq
        · obtain ⟨it, _, h⟩ := List.mem_flatMap.1 h
          rw [(itemOps_scope h).1] at hq
          rcases hself hq with h' | ⟨s, name, bs, h'⟩
          · exact .inl h'
          · exact .inr ⟨s, name, bs, List.mem_append_left _ (List.mem_append_left _ h')⟩
        · obtain ⟨k, hk, h⟩ := List.mem_flatMap.1 h
          rcases ih _ k op h q hq with h' | ⟨s, name, bs, h'⟩
          · rcases hself h' with h' | ⟨s, name, bs, h'⟩
            · exact .inl h'
            · exact .inr ⟨s, name, bs, List.mem_append_left _ (List.mem_append_left _ h')⟩
          · exact .inr ⟨s, name, bs, List.mem_append_right _ (List.mem_flatMap.2 ⟨k, hk, h'⟩)⟩

theorem made_scope {U : TransUnit} {op : Op} (h : Made U op) {q : Str} (hq : op.scope = .type q) (hne : q ≠ []) :
    ∃ s name bs, Made U (.class_ s name q bs) := by
  obtain ⟨v, hv, hb, hop⟩ := h
  cases v with
  | fn F => rw [overloads_mem hop] at hq; cases hq
  | enm e => rw [opsOf, List.mem_singleton] at hop; subst hop; cases hq
  | cls i =>
    rcases scope_class U.E _ _ i op hop q hq with h | ⟨s, name, bs, h⟩
    · injection h with h; exact absurd h.symm hne
    · exact ⟨s, name, bs, .cls i, hv, hb, h⟩

/-- The calls for a class that Python gets to. -/
theorem Spec.ClassSteps.ops {U : TransUnit} (hw : U.E.Wellfounded) {i : Nat} {steps : List (Scope × Str)} (h : ClassSteps U i steps) :
    PlainClass U.E i ∧ ∃ pre s n outer, steps = pre ++ [(s, pythonClassName U.E (U.E.cls i))] ∧ U.E.nestRank i < n ∧
      (∀ op ∈ classOpsF U.E n outer i, Made U op) ∧ s = (if (U.E.cls i).outer.isSome then outer else .module (nsOf U.E (U.E.cls i).qname (U.E.cls i).name)) ∧
      ((∃ cs, Reached U (.cls i) ∧ pre = nsSteps [] cs ∧ Components (namespaceOf U.E (.cls i)) cs ∧ s = .module (namespaceOf U.E (.cls i))) ∨
        ∃ j, ClassSteps U j pre ∧ s = .type (classQualifiedName U.E (U.E.cls j))) := by
  induction h with
  | @top i cs hr hb hp hc =>
    refine ⟨hp, nsSteps [] cs, _, U.E.nestRank i + 1, .type [], rfl, by omega, ?_, ?_, .inl ⟨cs, hr, rfl, hc, rfl⟩⟩
    · intro op hop; exact ⟨.cls i, hr, hb, hop⟩
    · have ho : (U.E.cls i).outer = none := ((offered_iff U _).1 (considered_offered hr.considered).2).1
      rw [ho]; rfl
  | @member i j steps hs hj hp ho ih =>
    obtain ⟨hpi, pre, s, n, outer, e1, hn, hops, _⟩ := ih
    refine ⟨hp, steps, _, n - 1, .type (classQualifiedName U.E (U.E.cls i)), rfl, ?_, ?_, ?_, .inr ⟨i, hs, rfl⟩⟩
    · have := (mem_nestedBound U.E _ _).1 hj
      obtain ⟨k, hk, _, rfl, _⟩ := this
      have := hw.nested i k hk
      omega
    · intro op hop
      apply hops
      obtain ⟨m, rfl⟩ : ∃ m, n = m + 1 := ⟨n - 1, by omega⟩
      simp only [classOpsF, hpi.builtin, hpi.binder, hpi.named]
      exact List.mem_append_right _ (List.mem_flatMap.2 ⟨j, hj, hop⟩)
    · rw [ho]; rfl

theorem Spec.ClassSteps.made {U : TransUnit} (hw : U.E.Wellfounded) {i : Nat} {steps : List (Scope × Str)} (h : ClassSteps U i steps) :
    ∃ pre s bs, steps = pre ++ [(s, pythonClassName U.E (U.E.cls i))] ∧ Made U (.class_ s (pythonClassName U.E (U.E.cls i)) (classQualifiedName U.E (U.E.cls i)) bs) ∧
      ((∃ cs, Reached U (.cls i) ∧ pre = nsSteps [] cs ∧ Components (namespaceOf U.E (.cls i)) cs ∧ s = .module (namespaceOf U.E (.cls i))) ∨
        ∃ j, ClassSteps U j pre ∧ s = .type (classQualifiedName U.E (U.E.cls j))) := by
  obtain ⟨hp, pre, s, n, outer, e, hn, hops, hs, hcase⟩ := h.ops hw
  refine ⟨pre, s, (boundBases U.E (U.E.cls i)).map fun j => classQualifiedName U.E (U.E.cls j), e, hops _ ?_, hcase⟩
  obtain ⟨m, rfl⟩ : ∃ m, n = m + 1 := ⟨n - 1, by omega⟩
  simp only [classOpsF, hp.builtin, hp.binder, hp.named, hs]
  exact List.mem_append_left _ (List.mem_append_left _ (List.mem_singleton.2 rfl))

theorem Spec.ClassSteps.enums {U : TransUnit} (hw : U.E.Wellfounded) {i : Nat} {steps : List (Scope × Str)} (h : ClassSteps U i steps) {e : Nat}
    (he : Item.enum e ∈ classItems U.E i) : Made U (enumOp (.type (classQualifiedName U.E (U.E.cls i))) (U.E.enumD e)) := by
  obtain ⟨hp, pre, s, n, outer, _, hn, hops, hs, hcase⟩ := h.ops hw
  apply hops
  obtain ⟨m, rfl⟩ : ∃ m, n = m + 1 := ⟨n - 1, by omega⟩
  simp only [classOpsF, hp.builtin, hp.binder, hp.named]
  refine List.mem_append_left _ (List.mem_append_right _ (List.mem_flatMap.2 ⟨_, he, ?_⟩))
  exact List.mem_singleton.2 rfl

theorem binds_scope {op : Op} {s : Scope} {n : Str} {k : Kind} (h : ((s, n), k) ∈ op.binds) : s = op.scope := by
  cases op with
  | class_ s' n' q bs => simp only [Op.binds, List.mem_singleton, Prod.mk.injEq] at h; exact h.1.1
  | enum_ s' n' q vs ex =>
    simp only [Op.binds, List.mem_cons, Prod.mk.injEq] at h
    rcases h with h | h
    · exact h.1.1
    · split at h
      · obtain ⟨v, _, e⟩ := List.mem_map.1 h
        simp only [Prod.mk.injEq] at e
        exact e.1.1.symm
      · cases h
  | property s' n' => simp only [Op.binds, List.mem_singleton, Prod.mk.injEq] at h; exact h.1.1
  | function s' n' m => simp only [Op.binds, List.mem_singleton, Prod.mk.injEq] at h; exact h.1.1
  | calls s' => cases h
  | binder ns q => cases h

/-- Only scopes that exist have names. -/
def Scoped (p : Py) : Prop := ∀ s n, (p.own s n).isSome = true → p.has s = true

theorem Scoped.exec {p p' : Py} {op : Op} (hp : Scoped p) (h : p.exec op = some p') : Scoped p' := by
  intro s n ho
  rcases exec_own h s n with ⟨k, _, hk⟩ | ⟨_, e⟩
  · rw [binds_scope hk]
    exact exec_has h (exec_scope h).2
  · rw [e] at ho
    exact exec_has h (hp s n ho)

/-- The name is given to a function exactly if it is bound to one. -/
def Agrees (o : Option Kind) (t : Option Thing) : Prop :=
  (∀ m, o = some (.func m) → t = some .func) ∧ (o = some .object → ∃ x, t = some x ∧ x ≠ .func) ∧
  (o = none → t = none ∨ ∃ q v, t = some (.value q v))

theorem Agrees.exec {p p' : Py} {op : Op} (hp : Scoped p) (h : p.exec op = some p') {s : Scope} {n : Str} {t : Option Thing}
    (ht : Agrees (p.own s n) t) : Agrees (p'.own s n) (match op.gives.lookup (s, n) with | some t => some t | none => t) := by
  rcases exec_own h s n with ⟨k, e, hk⟩ | ⟨hno, e⟩
  · rw [e]
    obtain ⟨x, hx⟩ := gives_of_binds hk
    obtain ⟨y, hy⟩ := Option.isSome_iff_exists.1 (lookup_isSome_of_mem hx)
    rw [hy]
    have hy := lookup_mem hy
    cases k with
    | func m =>
      have := binds_func hk
      subst this
      simp only [Op.gives, List.mem_singleton, Prod.mk.injEq] at hy
      refine ⟨fun _ _ => (by rw [hy.2]), fun h => (by cases h), fun h => (by cases h)⟩
    | object =>
      refine ⟨fun _ h => (by cases h), fun _ => ⟨y, rfl, ?_⟩, fun h => (by cases h)⟩
      rintro rfl
      cases op with
      | class_ => simp [Op.gives] at hy
      | enum_ s' n' q vs ex =>
        simp only [Op.gives, List.mem_append, List.mem_map, List.mem_singleton, Prod.mk.injEq] at hy
        rcases hy with (hy | ⟨_, _, _, hy⟩) | ⟨_, hy⟩
        · split at hy
          · obtain ⟨_, _, hy⟩ := List.mem_map.1 hy; cases hy
          · cases hy
        · cases hy
        · cases hy
      | property => simp [Op.gives] at hy
      | function s' n' m => simp [Op.binds] at hk
      | calls => cases hk
      | binder => cases hk
  · rw [e]
    cases hl : op.gives.lookup (s, n) with
    | none => exact ht
    | some y =>
      have hy := lookup_mem hl
      have hval : ∃ q v, y = .value q v ∧ s = .type q ∧ op.type? = some q := by
        cases op with
        | class_ s' n' q bs => simp only [Op.gives, List.mem_singleton, Prod.mk.injEq] at hy; exact absurd (by simp [Op.binds, hy]) (hno .object)
        | enum_ s' n' q vs ex =>
          simp only [Op.gives, List.mem_append, List.mem_map, List.mem_singleton, Prod.mk.injEq] at hy
          rcases hy with (hy | ⟨v, _, ⟨e1, _⟩, e2⟩) | ⟨⟨rfl, rfl⟩, _⟩
          · split at hy
            · rename_i hx
              obtain ⟨v, hv, e⟩ := List.mem_map.1 hy
              simp only [Prod.mk.injEq] at e
              obtain ⟨⟨rfl, rfl⟩, _⟩ := e
              exact absurd (by simp [Op.binds, hx, hv]) (hno .object)
            · cases hy
          · exact ⟨q, v, e2.symm, e1.symm, rfl⟩
          · exact absurd (by simp [Op.binds]) (hno .object)
        | property s' n' => simp only [Op.gives, List.mem_singleton, Prod.mk.injEq] at hy; exact absurd (by simp [Op.binds, hy]) (hno .object)
        | function s' n' m => simp only [Op.gives, List.mem_singleton, Prod.mk.injEq] at hy; exact absurd (by simp [Op.binds, hy]) (hno (.func m))
        | calls => cases hy
        | binder => cases hy
      obtain ⟨q, v, rfl, rfl, hq⟩ := hval
      have hnone : p.own (.type q) n = none := by
        cases ho : p.own (.type q) n with
        | none => rfl
        | some k =>
          have := hp (.type q) n (by rw [ho]; rfl)
          rcases exec_types h with ⟨e, _⟩ | ⟨q', l, e, hnew, _⟩
          · rw [hq] at e; cases e
          · rw [hq] at e
            cases e
            rw [Py.has, hnew] at this
            cases this
      rw [hnone]
      exact ⟨fun _ h => (by cases h), fun h => (by cases h), fun _ => .inr ⟨q, v, rfl⟩⟩

theorem Agrees.execAll (ops : List Op) : ∀ {p p' : Py} {s : Scope} {n : Str} {t : Option Thing}, Scoped p → p.execAll ops = some p' → Agrees (p.own s n) t →
    Agrees (p'.own s n) (match ops.reverse.findSome? fun op => op.gives.lookup (s, n) with | some t => some t | none => t) := by
  induction ops with
  | nil => intro p p' s n t _ h ht; cases h; exact ht
  | cons x ops ih =>
    intro p p' s n t hp h ht
    obtain ⟨p1, h1, h2⟩ := execAll_cons h
    have := ih (hp.exec h1) h2 (ht.exec hp h1)
    rw [List.reverse_cons, List.findSome?_append]
    cases e : ops.reverse.findSome? fun op : Op => op.gives.lookup (s, n) with
    | some y => rw [e] at this; exact this
    | none =>
      rw [e] at this
      cases e2 : x.gives.lookup (s, n) with
      | none => rw [e2] at this; simpa [e2] using this
      | some y => rw [e2] at this; simpa [e2] using this

theorem agrees_import {pairs : List (Str × Str)} {ops : List Op} {p : Py} (h : importModule pairs ops = some p) (s : Scope) (n : Str) :
    Agrees (p.own s n) (standsFor pairs ops s n) := by
  obtain ⟨p0, h0, h1⟩ := importModule_some h
  obtain ⟨ht, hm, h3⟩ := makeModules_state h0
  refine Agrees.execAll ops ?_ h1 ?_
  · intro s n ho
    rcases h3 s n with ⟨_, x, hx, rfl, rfl⟩ | ⟨_, e⟩
    · rw [Py.has, List.contains_iff_mem]
      exact makeModules_parent h0 x hx
    · rw [e] at ho; cases ho
  · rcases h3 s n with ⟨e, x, hx, hk⟩ | ⟨hno, e⟩
    · rw [e]
      have hsome : (pairs.reverse.findSome? (moduleGives s n)).isSome = true := by
        rw [List.findSome?_isSome_iff]
        exact ⟨x, List.mem_reverse.2 hx, by simp [moduleGives, hk]⟩
      obtain ⟨t, ht⟩ := Option.isSome_iff_exists.1 hsome
      refine ⟨fun _ h => (by cases h), fun _ => ⟨t, ht, ?_⟩, fun h => (by cases h)⟩
      obtain ⟨y, _, ey⟩ := List.exists_of_findSome?_eq_some ht
      unfold moduleGives at ey
      split at ey <;> cases ey
      intro h
      cases h
    · rw [e]
      refine ⟨fun _ h => (by cases h), fun h => (by cases h), fun _ => .inl ?_⟩
      rw [List.findSome?_eq_none_iff]
      intro y hy
      unfold moduleGives
      rw [if_neg (hno y (List.mem_reverse.1 hy))]

end Binder
