import Verif.Lemmas.Dotted

/-!
# C99: what dotted names in Python stand for
-/

namespace Binder

open Cxx Spec

theorem takes_made {U : TransUnit} {o : Opts} {fs fs' : FS} {srcs : List Source} (hg : Generated U o fs fs' srcs) {op : Op} (h : op ∈ importOps U.E srcs)
    {s : Scope} {n : Str} (ht : op.takes s n) : Made U op := by
  refine (mem_importOps hg op ?_).1 h
  rintro s' rfl
  cases ht

/-- C99. The root module makes a module for every namespace of a bound declaration and for the namespaces around it, and no others. -/
theorem C99_modules (U : TransUnit) (o : Opts) (fs fs' : FS) (hfs : fs.WF) (hn : U.visits.length + 1 < 2 ^ 32) (hd : DistinctNames U o)
    (h : U.Ends o fs (.done fs')) (hns : ∀ v, Reached U v → ∃ cs, Components (namespaceOf U.E v) cs) :
    ∃ srcs pairs root, Generated U o fs fs' srcs ∧ fs'.files (rootPath o) = some root ∧ MakesModules root pairs ∧ ModuleTable U pairs := by
  obtain ⟨st, bs, files, fs1, fs2, h⟩ := ends_done h
  have hroot := (congrArg (fun x : FS => x.files (rootPath o)) h.finish).trans (by rw [finishRun_root])
  refine ⟨_, subModules (allNestedNamespaces bs), _, generated_of_done h hfs hn hd, hroot,
    (makesModules_root U.E.cfg o (allNestedNamespaces bs) files).right _, h.table ?_⟩
  intro v hv
  obtain ⟨cs, e, hc⟩ := hns v hv
  rw [e]
  exact join_no_colons _ hc

/-- C99, the part that holds. Let the names of the modules and classes on the way not be taken by something else (`Kept`), and different namespaces have
different Python names. Then in the imported module

1. the name of a bound class, written with dots, is its Python class;
2. the name of a bound enumeration, written with dots, is its Python class;
3. an enumerator is an attribute of this class;
4. and an attribute of the scope of the enumeration, if the enumeration is not declared with `class` and nothing else takes the name;
5. but not if it is declared with `class`;
6. the name of a bound function, written with dots, is a function, if nothing else takes the name. -/
theorem C99_dotted_partial (U : TransUnit) (o : Opts) (fs fs' : FS) (srcs : List Source) (pairs : List (Str × Str)) (hw : U.E.Wellfounded)
    (hg : Generated U o fs fs' srcs) (htab : ModuleTable U pairs) (hmod : DistinctModules U) (p : Py)
    (hp : importModule pairs (importOps U.E srcs) = some p) :
        (∀ i steps, ClassSteps U i steps → (∀ x ∈ steps, Kept U x) →
          dotted pairs (importOps U.E srcs) (.module []) (steps.map (·.2)) = some (.type (classQualifiedName U.E (U.E.cls i)))) ∧
        (∀ e steps s, EnumSteps U e steps s → (∀ x ∈ steps, Kept U x) →
          (Kept U (s, (U.E.enumD e).name) →
            dotted pairs (importOps U.E srcs) (.module []) (steps.map (·.2) ++ [(U.E.enumD e).name]) = some (.type (U.E.enumD e).qname) ∧
            ((U.E.enumD e).qname ≠ [] → ∀ v ∈ (U.E.enumD e).enumerators,
              dotted pairs (importOps U.E srcs) (.module []) (steps.map (·.2) ++ [(U.E.enumD e).name, v.1]) = some (.value (U.E.enumD e).qname v.1))) ∧
          ((U.E.enumD e).isScopedUsingClassTag = false → ∀ v ∈ (U.E.enumD e).enumerators,
            (∀ op, Made U op → op.takes s v.1 → op.type? = some (U.E.enumD e).qname) →
            dotted pairs (importOps U.E srcs) (.module []) (steps.map (·.2) ++ [v.1]) = some (.value (U.E.enumD e).qname v.1)) ∧
          ((U.E.enumD e).isScopedUsingClassTag = true → ∀ v,
            dotted pairs (importOps U.E srcs) (.module []) (steps.map (·.2) ++ [v]) ≠ some (.value (U.E.enumD e).qname v))) ∧
        (∀ F cs, Reached U (.fn F) → U.E.cfg.binderForNamespaces (namespaceOf U.E (.fn F)) = none → Components (namespaceOf U.E (.fn F)) cs →
          (∀ x ∈ nsSteps [] cs, Kept U x) →
          (∀ op, Made U op → op.takes (.module (namespaceOf U.E (.fn F))) (pythonFunctionName F) →
            ∃ m, op = .function (.module (namespaceOf U.E (.fn F))) (pythonFunctionName F) m) →
          dotted pairs (importOps U.E srcs) (.module []) ((nsSteps [] cs).map (·.2) ++ [pythonFunctionName F]) = some .func) := by
  obtain ⟨htab1, htab2⟩ := htab
  generalize hops : importOps U.E srcs = ops at hp ⊢
  have hmade : ∀ op, Made U op → (∀ s, op ≠ .calls s) → op ∈ ops := by intro op hop hc; rw [← hops]; exact (mem_importOps hg op hc).2 hop
  have htakes : ∀ op ∈ ops, ∀ s n, op.takes s n → Made U op := by intro op hop s n ht; rw [← hops] at hop; exact takes_made hg hop ht
  have hkept : ∀ s n, Kept U (s, n) → ∀ op ∈ ops, ¬ op.takes s n := fun s n hk op hop ht => hk op (htakes op hop s n ht) ht
  have hsteps : ∀ v cs, Reached U v → Components (namespaceOf U.E v) cs → (∀ x ∈ nsSteps [] cs, Kept U x) →
      Leads pairs ops (.module []) (nsSteps [] cs) (.module (namespaceOf U.E v)) := by
    intro v cs hv hc hk
    have hk' : ∀ (pre a : List Str) (c : Str) (b : List Str), cs = pre ++ (a ++ c :: b) → (.module (joinNs (pre ++ a)), moduleName c) ∈ nsSteps pre (a ++ c :: b) := by
      intro pre a
      induction a generalizing pre with
      | nil => intro c b _; rw [List.append_nil]; exact List.mem_cons_self
      | cons y a ih =>
        intro c b e
        have := ih (pre ++ [y]) c b (by rw [e]; simp)
        rw [show pre ++ [y] ++ a = pre ++ y :: a by simp] at this
        exact List.mem_cons_of_mem _ this
    have := leads_namespaces (pairs := pairs) (ops := ops) cs [] (by simpa using hc.2) (by
      intro a c b e
      have hx := htab2 v cs hv hc a c b e
      have hm := hk' [] a c b (by simpa using e)
      rw [← e] at hm
      exact attribute_module hp hx (fun y hy h1 h2 => hmod y (joinNs a, c) (htab1 y hy) (htab1 _ hx) h1 h2) (hkept _ _ (hk _ hm)))
    rw [List.nil_append, ← hc.1] at this
    exact this
  have hclass : ∀ i steps, ClassSteps U i steps → (∀ x ∈ steps, Kept U x) →
      Leads pairs ops (.module []) steps (.type (classQualifiedName U.E (U.E.cls i))) ∧
      dotted pairs ops (.module []) (steps.map (·.2)) = some (.type (classQualifiedName U.E (U.E.cls i))) := by
    have main : ∀ pre s i bs', Made U (.class_ s (pythonClassName U.E (U.E.cls i)) (classQualifiedName U.E (U.E.cls i)) bs') →
        Kept U (s, pythonClassName U.E (U.E.cls i)) → Leads pairs ops (.module []) pre s →
        Leads pairs ops (.module []) (pre ++ [(s, pythonClassName U.E (U.E.cls i))]) (.type (classQualifiedName U.E (U.E.cls i))) ∧
        dotted pairs ops (.module []) ((pre ++ [(s, pythonClassName U.E (U.E.cls i))]).map (·.2)) = some (.type (classQualifiedName U.E (U.E.cls i))) := by
      intro pre s i bs' hm hk hl
      have ht := attribute_type hp (hmade _ hm (by simp)) (s := s) (n := pythonClassName U.E (U.E.cls i)) rfl rfl (hkept _ _ hk)
      refine ⟨hl.append ⟨rfl, _, by rw [ht]; rfl, rfl⟩, ?_⟩
      rw [List.map_append]
      exact (hl.dotted (by simp)).trans ht
    intro i steps hs
    induction hs with
    | @top i cs hr hb hpl hc =>
      intro hk
      obtain ⟨pre, s, bs', e, hm, _⟩ := (ClassSteps.top hr hb hpl hc).made hw
      obtain ⟨e1, e2⟩ := List.append_inj' e rfl
      rw [List.cons.injEq, Prod.mk.injEq] at e2
      rw [← e2.1.1] at hm
      exact main _ _ i bs' hm (hk _ (by simp)) (hsteps _ cs hr hc (fun x hx => hk x (List.mem_append_left _ hx)))
    | @member i j steps hs hj hpl ho ih =>
      intro hk
      obtain ⟨pre, s, bs', e, hm, _⟩ := (ClassSteps.member hs hj hpl ho).made hw
      obtain ⟨e1, e2⟩ := List.append_inj' e rfl
      rw [List.cons.injEq, Prod.mk.injEq] at e2
      rw [← e2.1.1] at hm
      exact main _ _ j bs' hm (hk _ (by simp)) (ih (fun x hx => hk x (List.mem_append_left _ hx))).1
  refine ⟨fun i steps hs hk => (hclass i steps hs hk).2, ?_, ?_⟩
  · intro e steps s he hk
    have hl : Leads pairs ops (.module []) steps s ∧ Made U (enumOp s (U.E.enumD e)) := by
      cases he with
      | top hr hb hc => exact ⟨hsteps _ _ hr hc hk, .enm e, hr, hb, List.mem_singleton.2 rfl⟩
      | member hs hi => exact ⟨(hclass _ _ hs hk).1, hs.enums hw hi⟩
    obtain ⟨hl, hm⟩ := hl
    have hop := hmade _ hm (by simp [enumOp])
    obtain ⟨p0, h0, h1⟩ := importModule_some hp
    have hnd := types_once _ h1
    refine ⟨?_, ?_, ?_⟩
    · intro hkn
      have ht := attribute_type hp hop (s := s) (n := (U.E.enumD e).name) rfl rfl (hkept _ _ hkn)
      refine ⟨(hl.dotted (by simp)).trans ht, ?_⟩
      intro hq v hv
      have hl2 : Leads pairs ops (.module []) (steps ++ [(s, (U.E.enumD e).name)]) (.type (U.E.enumD e).qname) :=
        hl.append ⟨rfl, _, by rw [ht]; rfl, rfl⟩
      have := hl2.dotted (b := [v.1]) (by simp)
      rw [List.map_append, List.append_assoc] at this
      refine this.trans ?_
      refine attribute_enumerator hp hop (List.mem_map.2 ⟨v, hv, rfl⟩) ?_
      intro op hop' hsc
      rw [← hops] at hop'
      obtain ⟨s', name, bs', hcl⟩ : ∃ s' name bs', Made U (.class_ s' name (U.E.enumD e).qname bs') := by
        rw [importOps_eq] at hop'
        obtain ⟨st', hst, hop'⟩ := List.mem_flatMap.1 hop'
        cases st' with
        | traces n t => cases hop'
        | calls f ns => rw [List.mem_singleton.1 hop'] at hsc; cases hsc
        | binds v =>
          have := (hg.exactly v).1 (by rw [← bound_stmts]; exact List.mem_filterMap.2 ⟨.binds v, hst, rfl⟩)
          exact made_scope ⟨v, this.1, this.2, hop'⟩ hsc hq
      have := filterMap_nodup_eq (f := Op.type?) (b := (U.E.enumD e).qname) hnd hop (hmade _ hcl (by simp)) rfl rfl
      cases this
    · intro hx v hv hno
      refine (hl.dotted (by simp)).trans ?_
      have hop' : Op.enum_ s (U.E.enumD e).name (U.E.enumD e).qname ((U.E.enumD e).enumerators.map (·.1)) true ∈ ops := by
        have := hop
        rw [enumOp, hx] at this
        exact this
      refine attribute_exported hp hop' (List.mem_map.2 ⟨v, hv, rfl⟩) ?_
      intro op ho ht
      exact filterMap_nodup_eq (f := Op.type?) (b := (U.E.enumD e).qname) hnd ho hop' (hno op (htakes op ho _ _ ht) ht) rfl
    · intro hx v
      rw [hl.dotted (by simp)]
      rw [enumOp, hx] at hop
      exact not_exported hp hop v
  · intro F cs hr hb hc hk hno
    have hl := hsteps _ cs hr hc hk
    refine (hl.dotted (by simp)).trans ?_
    have hm : Made U (.function (.module (namespaceOf U.E (.fn F))) (pythonFunctionName F) false) := by
      refine ⟨.fn F, hr, hb, ?_⟩
      unfold opsOf overloads
      rw [List.mem_map]
      refine ⟨F.params.length, ?_, rfl⟩
      have := firstArity_le F
      unfold arities
      rw [List.mem_range'_1]
      omega
    exact attribute_function hp (hmade _ hm (by simp)) (fun op ho ht => hno op (htakes op ho _ _ ht) ht)

/-! ## Kinds -/

/-- C99. What a name stands for, and what the interpreter of C81 and C84 knows under it, agree: a function is a function; an object is a class, an
enumeration, an enumerator, a property or a module; and a name the interpreter does not know stands for nothing, or for an enumerator in the Python
class of its enumeration. -/
theorem C99_kinds (pairs : List (Str × Str)) (ops : List Op) (p : Py) (h : importModule pairs ops = some p) (s : Scope) (n : Str) :
    (∀ m, p.own s n = some (.func m) → standsFor pairs ops s n = some .func) ∧
    (p.own s n = some .object → ∃ t, standsFor pairs ops s n = some t ∧ t ≠ .func) ∧
    (p.own s n = none → standsFor pairs ops s n = none ∨ ∃ q, s = .type q ∧ standsFor pairs ops s n = some (.value q n)) := by
  obtain ⟨h1, h2, h3⟩ := agrees_import h s n
  refine ⟨h1, h2, fun ho => ?_⟩
  rcases h3 ho with h' | ⟨q, v, h'⟩
  · exact .inl h'
  refine .inr ⟨q, ?_⟩
  obtain ⟨p0, h0, hx⟩ := importModule_some h
  have hno : ∀ op ∈ ops, ∀ kind, ((s, n), kind) ∉ op.binds := by
    rcases execAll_own ops hx s n with ⟨kind, e, _⟩ | ⟨hno, _⟩
    · rw [ho] at e; cases e
    · exact hno
  obtain ⟨op, hop, hg⟩ : ∃ op ∈ ops, ((s, n), Thing.value q v) ∈ op.gives := by
    have h'' := h'
    unfold standsFor at h''
    split at h''
    · rename_i t ht
      cases h''
      obtain ⟨op, hop, e⟩ := List.exists_of_findSome?_eq_some ht
      exact ⟨op, List.mem_reverse.1 hop, Binder.lookup_mem e⟩
    · obtain ⟨y, _, ey⟩ := List.exists_of_findSome?_eq_some h''
      unfold moduleGives at ey
      split at ey <;> cases ey
  cases op with
  | enum_ s' n' q' vs ex =>
    simp only [Op.gives, List.mem_append, List.mem_map, List.mem_singleton, Prod.mk.injEq] at hg
    rcases hg with (hg | ⟨w, _, ⟨rfl, rfl⟩, e⟩) | ⟨_, e⟩
    · split at hg
      · rename_i hex
        obtain ⟨w, hw, e⟩ := List.mem_map.1 hg
        simp only [Prod.mk.injEq] at e
        refine absurd ?_ (hno _ hop .object)
        rw [← e.1.1, ← e.1.2]
        simp [Op.binds, hex, hw]
      · cases hg
    · cases e
      exact ⟨rfl, h'⟩
    · cases e
  | _ => simp [Op.gives] at hg

/-! ## Examples -/

/-- The names of the types below. -/
def Ex.colorsNames : Ty → Str
  | .record 0 => c!"n::S"
  | .record 1 => c!"n::S::N"
  | .enum 0 => c!"n::S::color"
  | .enum 1 => c!"n::size"
  | .basic _ => c!"int"
  | _ => c!"other"

/-- The enumerations below. -/
def Ex.colorsEnums : Nat → EnumD
  | 0 => { exampleEnum with
      name := c!"color", qname := c!"n::S::color", incl := c!"<n.h>", access := .pub, outer := some 0
      enumerators := [(c!"red", c!"n::S::red"), (c!"green", c!"n::S::green")] }
  | _ => { exampleEnum with
      name := c!"size", qname := c!"n::size", incl := c!"<n.h>", isScoped := true, isScopedUsingClassTag := true
      enumerators := [(c!"big", c!"n::size::big")] }

/-- The function below. -/
def Ex.colorsF : Func := { exampleMethod c!"g" false (.basic 0) [] with qname := c!"n::g", incl := c!"<n.h>", method := none }

/-- `namespace n { struct S { struct N {}; enum color { red, green }; }; enum class size { big }; int g(); }` with `+namespace n`. -/
def Ex.colors : TransUnit :=
  { env := withClasses { exampleEnv with tyName := Ex.colorsNames, enumD := Ex.colorsEnums, cfg := { namespacesToBind := [c!"n"] }, nestRank := fun i => if i = 0 then 1 else 0 }
      [{ exampleIn c!"n" c!"S" none with members := [.nested 1, .enum 0] },
       { exampleIn c!"n::S" c!"N" none with access := .pub, outer := some 0, incl := c!"<n.h>" }]
    visits := [.cls 0, .cls 1, .enm 0, .enm 1, .fn Ex.colorsF], inSystem := fun _ => false, depth := 20 }


theorem Ex.colors_cls (i : Nat) : (Ex.colors.E.cls i).bases = [] ∧ (Ex.colors.E.cls i).isAnonymous = false := by
  match i with
  | 0 | 1 => exact ⟨rfl, rfl⟩
  | n + 2 => exact ⟨rfl, rfl⟩

theorem Ex.colors_nested (i j : Nat) (h : j ∈ nestedBound Ex.colors.E (Ex.colors.E.cls i)) : i = 0 ∧ j = 1 := by
  match i with
  | 0 => rw [show nestedBound Ex.colors.E (Ex.colors.E.cls 0) = [1] by decide +kernel, List.mem_singleton] at h; exact ⟨rfl, h⟩
  | 1 => rw [show nestedBound Ex.colors.E (Ex.colors.E.cls 1) = [] by decide +kernel] at h; cases h
  | n + 2 => rw [show nestedBound Ex.colors.E (Ex.colors.E.cls (n + 2)) = [] from rfl] at h; cases h

theorem Ex.colors_listed {i j : Nat} (h : ListedBase Ex.colors.E i j) : False := by
  have h' := (mem_boundBases _ _ _).2 h
  match i with
  | 0 => rw [show boundBases Ex.colors.E (Ex.colors.E.cls 0) = [] by decide +kernel] at h'; cases h'
  | 1 => rw [show boundBases Ex.colors.E (Ex.colors.E.cls 1) = [] by decide +kernel] at h'; cases h'
  | n + 2 => rw [show boundBases Ex.colors.E (Ex.colors.E.cls (n + 2)) = [] from rfl] at h'; cases h'

theorem Ex.colors_visits {v : Visit} (h : Reached Ex.colors v) : v ∈ [.cls 0, .enm 1, .fn Ex.colorsF] := by
  have h1 := (considered_eq Ex.colors) ▸ h.considered
  have h2 : firstOfName Ex.colors.E (Ex.colors.visits.filter Ex.colors.offered) = [.cls 0, .enm 1, .fn Ex.colorsF] := by decide +kernel
  rwa [h2] at h1

theorem Ex.colors_reached : Reached Ex.colors (.cls 0) ∧ Reached Ex.colors (.enm 1) ∧ Reached Ex.colors (.fn Ex.colorsF) := by
  refine ⟨?_, ?_, ?_⟩
  · refine Ex.asked (by decide +kernel) True.intro (by decide +kernel) ?_ rfl (by decide +kernel)
    unfold Converted; decide +kernel
  · refine Ex.asked (by decide +kernel) ⟨by decide +kernel, by decide +kernel⟩ (by decide +kernel) ?_ rfl (by decide +kernel)
    unfold Converted; decide +kernel
  · refine Ex.asked (by decide +kernel) True.intro (by decide +kernel) ?_ rfl (by decide +kernel)
    unfold Converted; decide +kernel

theorem Ex.colors_ns : ∀ v ∈ [Visit.cls 0, .enm 1, .fn Ex.colorsF], namespaceOf Ex.colors.E v = c!"n" := by decide +kernel

theorem Ex.colors_wellfounded : Ex.colors.env.Wellfounded := wellfounded_of_ranked (by decide)

theorem Ex.colors_imports : ∃ o fs' srcs pairs p, Ex.colors.Ends o Ex.fsEmpty (.done fs') ∧ Generated Ex.colors o Ex.fsEmpty fs' srcs ∧ ModuleTable Ex.colors pairs ∧
    importModule pairs (importOps Ex.colors.E srcs) = some p := by
  obtain ⟨fs', h, _⟩ : ∃ fs', Ex.colors.Ends { Ex.opts 1000 with single := true } Ex.fsEmpty (.done fs') ∧ (fun _ => true) fs' = true :=
    Ex.ends_after (n := 20) (by decide +kernel)
  have hns := Ex.colors_ns
  have hplain : BasesPlain Ex.colors :=
    ⟨fun i j k h => (Ex.colors_listed h).elim, fun i j k h => (Ex.colors_listed h).elim, fun i j h => (Ex.colors_listed h).elim,
     fun i j h => (Ex.colors_listed h).elim, fun i j h => (Ex.colors_listed h).elim⟩
  have hcomp : Compatible (fun op => ∃ v, Reached Ex.colors v ∧ op ∈ opsOf Ex.colors.E v) (HasModule Ex.colors) (fun q => [q]) := by
    refine compatible_of_list (ops := [Visit.cls 0, .enm 1, .fn Ex.colorsF].flatMap (opsOf Ex.colors.E)) (pairs := [c!"n"].map fun n => ([], n)) ?_ ?_ (by decide +kernel)
    · rintro op ⟨v, hv, hop⟩
      exact List.mem_flatMap.2 ⟨v, Ex.colors_visits hv, hop⟩
    · intro x hx
      exact hasModule_single (fun v hv => by rw [hns v (Ex.colors_visits hv)]; simp) (by decide) hx
  have hone : OneDefinition Ex.colors := by
    constructor
    · intro v hv
      have : ∀ v ∈ [Visit.cls 0, .enm 1, .fn Ex.colorsF], ((opsOf Ex.colors.E v).filterMap Op.type?).Nodup := by decide +kernel
      exact this v (Ex.colors_visits hv)
    · intro v w q hv hw
      have : ∀ v ∈ [Visit.cls 0, .enm 1, .fn Ex.colorsF], ∀ w ∈ [Visit.cls 0, .enm 1, .fn Ex.colorsF], ∀ q ∈ (opsOf Ex.colors.E v).filterMap Op.type?,
          q ∈ (opsOf Ex.colors.E w).filterMap Op.type? → v = w := by decide +kernel
      exact this v (Ex.colors_visits hv) w (Ex.colors_visits hw) q
  obtain ⟨srcs, pairs, root, hg, _, ht, p, hp⟩ := C81_import_partial Ex.colors _ Ex.fsEmpty fs' Ex.fsEmpty_wf (by decide) (.inl rfl)
    Ex.colors_wellfounded h hplain (fun i a j b k _ _ hl => (Ex.colors_listed hl).elim) hone
    ⟨fun i j hj => (by obtain ⟨rfl, rfl⟩ := Ex.colors_nested i j hj; rfl), fun i j hj => (by obtain ⟨rfl, rfl⟩ := Ex.colors_nested i j hj; rfl)⟩
    (fun i _ => (Ex.colors_cls i).2) (fun v hv h => by rw [hns v (Ex.colors_visits hv)] at h; revert h; decide) _ hcomp
  exact ⟨_, fs', srcs, pairs, p, h, hg, ht.2, hp⟩

/-- A test for `Op.takes`. -/
def Ex.takesF (x : Scope × Str) : Op → Bool
  | .enum_ s' _ _ vs ex => decide (s' = x.1) && ex && vs.contains x.2
  | .property s' n' => decide (s' = x.1) && decide (n' = x.2)
  | .function s' n' _ => decide (s' = x.1) && decide (n' = x.2) && decide (x.2.head? = some '_')
  | _ => false

theorem Ex.takesF_iff {x : Scope × Str} {op : Op} : Ex.takesF x op = true ↔ op.takes x.1 x.2 := by
  cases op <;> simp [Ex.takesF, Op.takes, and_assoc]

theorem Ex.colors_kept {x : Scope × Str} (h : ∀ v ∈ [Visit.cls 0, .enm 1, .fn Ex.colorsF], ∀ op ∈ opsOf Ex.colors.E v, Ex.takesF x op = false) : Kept Ex.colors x := by
  rintro op ⟨v, hv, _, hop⟩ ht
  have := h v (Ex.colors_visits hv) op hop
  rw [Ex.takesF_iff.2 ht] at this
  cases this

/-- A case of `C99_dotted_partial`: in the module for `Ex.colors`, `n.S.N` is the class `n::S::N`, `n.S.color.red` and `n.S.red` are the enumerator, `n.size.big` is the enumerator of
the scoped enumeration, `n.big` is not, and `n.g` is a function. -/
example : ∃ o fs' srcs pairs p, Ex.colors.Ends o Ex.fsEmpty (.done fs') ∧ Generated Ex.colors o Ex.fsEmpty fs' srcs ∧ ModuleTable Ex.colors pairs ∧
    importModule pairs (importOps Ex.colors.E srcs) = some p ∧
    (let at_ := dotted pairs (importOps Ex.colors.E srcs) (.module [])
     at_ [c!"n", c!"S", c!"N"] = some (.type c!"n::S::N") ∧ at_ [c!"n", c!"S", c!"color", c!"red"] = some (.value c!"n::S::color" c!"red") ∧
     at_ [c!"n", c!"S", c!"red"] = some (.value c!"n::S::color" c!"red") ∧ at_ [c!"n", c!"size", c!"big"] = some (.value c!"n::size" c!"big") ∧
     at_ [c!"n", c!"big"] ≠ some (.value c!"n::size" c!"big") ∧ at_ [c!"n", c!"g"] = some .func) := by
  obtain ⟨o, fs', srcs, pairs, p, h1, h2, h3, h4⟩ := Ex.colors_imports
  have hns := Ex.colors_ns
  have hmod : DistinctModules Ex.colors := by
    intro x y hx hy _ _
    have key := fun x (hx : HasModule Ex.colors x) => hasModule_single (names := [c!"n"]) (fun v hv => by rw [hns v (Ex.colors_visits hv)]; simp) (by decide) hx
    have e1 := List.mem_singleton.1 (key x hx)
    have e2 := List.mem_singleton.1 (key y hy)
    rw [e1, e2]
  obtain ⟨c1, c2, c3⟩ := C99_dotted_partial Ex.colors o _ fs' srcs pairs Ex.colors_wellfounded h2 h3 hmod p h4
  obtain ⟨r0, r1, r2⟩ := Ex.colors_reached
  have hcomp : ∀ v ∈ [Visit.cls 0, .enm 1, .fn Ex.colorsF], Components (namespaceOf Ex.colors.E v) [c!"n"] := by
    intro v hv
    refine ⟨hns v hv, ?_⟩
    intro c hc
    rw [List.mem_singleton.1 hc]
    exact ⟨by decide, by decide⟩
  have pl : ∀ i, i = 0 ∨ i = 1 → PlainClass Ex.colors.E i := by
    rintro i (rfl | rfl) <;> exact ⟨rfl, by decide +kernel, by decide +kernel⟩
  have s0 := ClassSteps.top r0 rfl (pl 0 (.inl rfl)) (hcomp _ (by simp))
  have s1 := ClassSteps.member s0 (show 1 ∈ nestedBound Ex.colors.E (Ex.colors.E.cls 0) by decide +kernel) (pl 1 (.inr rfl)) rfl
  have e0 := EnumSteps.member (e := 0) s0 (by decide +kernel)
  have e1 := EnumSteps.top r1 rfl (hcomp _ (by simp))
  have k : ∀ x ∈ [(Scope.module [], c!"n"), (.module c!"n", c!"S"), (.type c!"n::S", c!"N"), (.type c!"n::S", c!"color"), (.module c!"n", c!"size"), (.module c!"n", c!"g")],
      Kept Ex.colors x := by
    intro x hx
    refine Ex.colors_kept ?_
    revert x
    decide +kernel
  refine ⟨o, fs', srcs, pairs, p, h1, h2, h3, h4, ?_, ?_, ?_, ?_, ?_, ?_⟩
  · have := c1 1 _ s1 (fun x hx => k x (by revert hx; revert x; decide +kernel))
    have e : classQualifiedName Ex.colors.E (Ex.colors.E.cls 1) = c!"n::S::N" := by decide +kernel
    rw [e] at this
    exact this
  · exact ((c2 0 _ _ e0 (fun x hx => k x (by revert hx; revert x; decide +kernel))).1 (k _ (by decide +kernel))).2 (by decide) (c!"red", c!"n::S::red") (by decide)
  · refine (c2 0 _ _ e0 (fun x hx => k x (by revert hx; revert x; decide +kernel))).2.1 rfl (c!"red", c!"n::S::red") (by decide) ?_
    rintro op ⟨v, hv, _, hop⟩ ht
    have key : ∀ v ∈ [Visit.cls 0, .enm 1, .fn Ex.colorsF], ∀ op ∈ opsOf Ex.colors.E v,
        Ex.takesF (.type (classQualifiedName Ex.colors.E (Ex.colors.E.cls 0)), c!"red") op = true → op.type? = some (Ex.colors.E.enumD 0).qname := by decide +kernel
    exact key v (Ex.colors_visits hv) op hop (Ex.takesF_iff.2 ht)
  · exact ((c2 1 _ _ e1 (fun x hx => k x (by revert hx; revert x; decide +kernel))).1 (k _ (by decide +kernel))).2 (by decide) (c!"big", c!"n::size::big") (by decide)
  · exact (c2 1 _ _ e1 (fun x hx => k x (by revert hx; revert x; decide +kernel))).2.2 rfl c!"big"
  · exact c3 _ _ r2 rfl (hcomp _ (by simp)) (fun x hx => k x (by revert hx; revert x; decide +kernel)) (fun op hop ht => absurd ht (k (_, c!"g") (by decide +kernel) op hop))

/-! ## Names that are taken -/

/-- If no function of the user is called for a namespace, the calls are those of the bound declarations. -/
theorem importOps_noCalls {U : TransUnit} {o : Opts} {fs fs' : FS} {srcs : List Source} (hg : Generated U o fs fs' srcs)
    (h : ∀ ns, U.E.cfg.binderForNamespaces ns = none ∧ U.E.cfg.addOnBinderForNamespaces ns = none) :
    importOps U.E srcs = (srcs.flatMap Source.bound).flatMap (opsOf U.E) := by
  rw [importOps_eq, ← bound_stmts]
  have hc : ∀ f ns, Stmt.calls f ns ∉ srcs.flatMap Source.stmts := by
    intro f ns hm
    obtain ⟨s, hs, hm⟩ := List.mem_flatMap.1 hm
    rcases (hg.calls s hs f ns hm).1 with e | e
    · rw [(h ns).1] at e; cases e
    · rw [(h ns).2] at e; cases e
  generalize srcs.flatMap Source.stmts = l at hc
  induction l with
  | nil => rfl
  | cons x l ih =>
    have ih := ih (fun f ns hm => hc f ns (List.mem_cons_of_mem _ hm))
    cases x with
    | calls f ns => exact absurd List.mem_cons_self (hc f ns)
    | traces n t => exact ih
    | binds v =>
      rw [List.flatMap_cons, ih]
      rfl

/-- The enumeration below. -/
def Ex.kindEnum : EnumD :=
  { exampleEnum with name := c!"kind", qname := c!"S::kind", access := .pub, outer := some 0, enumerators := [(c!"a", c!"S::a")] }

/-- `struct S { enum kind { a } kind; };` with `+namespace` for all. -/
def Ex.kinds : TransUnit :=
  { env := withClasses { exampleEnv with
        tyName := fun t => match t with | .record _ => c!"S" | .enum _ => c!"S::kind" | _ => c!"int"
        enumD := fun _ => Ex.kindEnum, cfg := { namespacesToBind := [c!""] } }
      [{ exampleRecord with name := c!"S", qname := c!"S", members := [.enum 0, .field ⟨c!"kind", c!"S::kind", .enum 0, .pub, false⟩] }]
    visits := [.cls 0, .enm 0], inSystem := fun _ => false, depth := 20 }

/-- C99 fails for `struct S { enum kind { a } kind; };`: the module can be imported, but `S.kind` is the property for the data member, and no longer the Python class for the
enumeration `S::kind`; in C++, `S::kind` is the data member, too, but `enum S::kind` is the enumeration, and nothing in Python is. -/
theorem C99_taken_false : ∃ o fs' srcs p, Ex.kinds.Ends o Ex.fsEmpty (.done fs') ∧ Generated Ex.kinds o Ex.fsEmpty fs' srcs ∧ ModuleTable Ex.kinds [] ∧
    importModule [] (importOps Ex.kinds.E srcs) = some p ∧ (∃ steps s, EnumSteps Ex.kinds 0 steps s) ∧
    dotted [] (importOps Ex.kinds.E srcs) (.module []) [c!"S", c!"kind"] = some .prop ∧
    ∀ s n, standsFor [] (importOps Ex.kinds.E srcs) s n ≠ some (.type c!"S::kind") := by
  obtain ⟨fs', h, _⟩ : ∃ fs', Ex.kinds.Ends { Ex.opts 1000 with single := true } Ex.fsEmpty (.done fs') ∧ (fun _ => true) fs' = true :=
    Ex.ends_after (n := 20) (by decide +kernel)
  have hr : Reached Ex.kinds (.cls 0) := by
    refine Ex.asked (by decide +kernel) True.intro (by decide +kernel) ?_ rfl (by decide +kernel)
    unfold Converted; decide +kernel
  have hv : ∀ v, Reached Ex.kinds v → v = .cls 0 := by
    intro v h
    have h1 := (considered_eq Ex.kinds) ▸ h.considered
    have h2 : firstOfName Ex.kinds.E (Ex.kinds.visits.filter Ex.kinds.offered) = [.cls 0] := by decide +kernel
    rw [h2] at h1
    exact List.mem_singleton.1 h1
  have hns : namespaceOf Ex.kinds.E (.cls 0) = [] := by decide +kernel
  obtain ⟨srcs, pairs, root, hg, _, _, ht⟩ := C99_modules Ex.kinds _ Ex.fsEmpty fs' Ex.fsEmpty_wf (by decide) (.inl rfl) h
    (fun v h => ⟨[], by rw [hv v h]; exact ⟨hns, by simp⟩⟩)
  have hops : importOps Ex.kinds.E srcs = opsOf Ex.kinds.E (.cls 0) := by
    rw [importOps_noCalls hg (fun _ => ⟨rfl, rfl⟩)]
    have hm : ∀ v, v ∈ srcs.flatMap Source.bound ↔ v = .cls 0 := by
      intro v
      rw [hg.exactly]
      exact ⟨fun h => hv v h.1, fun h => h ▸ ⟨hr, rfl⟩⟩
    have hnd := hg.once
    generalize srcs.flatMap Source.bound = l at hm hnd
    match l with
    | [] => exact absurd ((hm _).2 rfl) (by simp)
    | [x] => rw [(hm x).1 (by simp)]; simp
    | x :: y :: l =>
      rw [(hm x).1 (by simp), (hm y).1 (by simp)] at hnd
      simp at hnd
  have htab : ModuleTable Ex.kinds [] := by
    refine ⟨by simp, ?_⟩
    intro v cs h' hc a c b e
    rw [hv v h', hns] at hc
    rw [(joinNs_eq_nil hc.2).1 hc.1.symm] at e
    simp at e
  have hst := ClassSteps.top hr rfl (cs := []) ⟨rfl, by decide +kernel, by decide +kernel⟩ ⟨hns, by simp⟩
  obtain ⟨p, hp⟩ := Option.isSome_iff_exists.1 (show (importModule [] (opsOf Ex.kinds.E (.cls 0))).isSome = true by decide +kernel)
  refine ⟨_, fs', srcs, p, h, hg, htab, by rw [hops]; exact hp, ⟨_, _, .member hst (by decide +kernel)⟩, by rw [hops]; decide +kernel, ?_⟩
  intro s n h'
  rw [hops] at h'
  have h'' := h'
  unfold standsFor at h''
  split at h''
  · rename_i t ht
    cases h''
    obtain ⟨op, hop, e⟩ := List.exists_of_findSome?_eq_some ht
    have key : ∀ op ∈ opsOf Ex.kinds.E (.cls 0), ∀ x ∈ op.gives, x.2 = Thing.type c!"S::kind" → x.1 = (Scope.type c!"S", c!"kind") := by decide +kernel
    have hx := key op (List.mem_reverse.1 hop) _ (Binder.lookup_mem e) rfl
    cases hx
    revert h'
    decide +kernel
  · cases h''

end Binder
