import Verif.Spec.Wishes
import Verif.Lemmas.WishRun
import Verif.Lemmas.WishFile
import Verif.Props.Surface

/-!
# C86: asking for more, or leaving out less, loses nothing
-/

namespace Binder

open Cxx Spec

/-- C86. A run with more wishes that returns binds at least the declarations that the original wishes reach. (Contradictory wishes end a run with
an exception.) -/
theorem C86_reached (U : TransUnit) (w : Wishes) (h : (wishesOf U.env.cfg).Le w) (o : Opts) (fs fs' : FS)
    (hr : (wishing U w).Ends o fs (.done fs')) (v : Visit) (hv : Reached U v) : Reached (wishing U w) v := by
  obtain ⟨st, bs, files, fs1, fs2, hr⟩ := ends_done hr
  exact wishing_reached h hr.noConflict hv

theorem wishing_made {U : TransUnit} {w : Wishes} (h : (wishesOf U.env.cfg).Le w) (hr : ∀ v, Reached U v → Reached (wishing U w) v) {op : Op}
    (hm : Made U op) : ∃ op', Made (wishing U w) op' ∧ op.binds ⊆ op'.binds := by
  obtain ⟨v, hv, hb, hop⟩ := hm
  obtain ⟨op', h1, h2⟩ := wish_opsOf (E := U.E) h v op hop
  refine ⟨op', ⟨v, hr v hv, ?_, ?_⟩, h2⟩
  · rw [wishing_namespaceOf, wishing_E]; exact hb
  · rw [wishing_E]; exact h1

theorem wishing_registersF (E : Env) (w : Wishes) (n i : Nat) : registersF (wished E w) n i = registersF E n i := by
  induction n generalizing i with
  | zero => rfl
  | succ n ih =>
    rw [registersF, registersF, show registersF (wished E w) n = registersF E n from funext ih]
    have : nestedBound (wished E w) ((wished E w).cls i) = nestedBound E (E.cls i) := by rw [nestedBound, nestedBound, wish_classBindable]; rfl
    rw [this]
    rfl

theorem wishing_hasClass {U : TransUnit} {w : Wishes} (hr : ∀ v, Reached U v → Reached (wishing U w) v) {i : Nat} (hc : HasClass U i) :
    HasClass (wishing U w) i := by
  obtain ⟨⟨v, hv, hb, hi⟩, h2⟩ := hc
  refine ⟨⟨v, hr v hv, ?_, ?_⟩, ?_⟩
  · rw [wishing_namespaceOf, wishing_E]; exact hb
  · rw [wishing_E]
    cases v with
    | cls j =>
      show i ∈ registersF (wished U.E w) (U.E.nestRank j + 1) j
      rw [wishing_registersF]
      exact hi
    | fn F => exact hi
    | enm j => exact hi
  · rw [wishing_E]; exact h2

theorem wishing_derives {U : TransUnit} {w : Wishes} (h : (wishesOf U.env.cfg).Le w) (hr : ∀ v, Reached U v → Reached (wishing U w) v) {q r : Str}
    (hd : Derives U (ListedBase U.E) q r) : Derives (wishing U w) (ListedBase (wishing U w).E) q r := by
  induction hd with
  | refl q => exact .refl q
  | @step i j r hi hj _ ih =>
    have hj' : ListedBase (wishing U w).E i j := by
      rw [← mem_boundBases, wishing_E]
      exact wish_boundBases (E := U.E) h _ ((mem_boundBases U.E i j).2 hj)
    have := Derives.step (wishing_hasClass hr hi) hj' (by rw [wishing_E] at ih ⊢; exact ih)
    rw [wishing_E] at this ⊢
    exact this

theorem wishing_distinct {U : TransUnit} (w : Wishes) {o : Opts} (h : DistinctNames U o) : DistinctNames (wishing U w) o := by
  have e : (fun v : Visit => fileNamePrefix ((wishing U w).decl v).incl (namespaceOf (wishing U w).E v)) =
      fun v : Visit => fileNamePrefix (U.decl v).incl (namespaceOf U.E v) := by
    funext v
    rw [wishing_namespaceOf]
    have : ((wishing U w).decl v).incl = (U.decl v).incl := by
      cases v with
      | fn F => rfl
      | cls i => simp only [TransUnit.decl, wishing_E]; rfl
      | enm i => simp only [TransUnit.decl, wishing_E]; rfl
    rw [this]
  unfold DistinctNames at h ⊢
  rw [e]
  exact h

/-- C86. Two runs for the same program that return, the second with more wishes (and with whatever options for the output): the sources of the
second bind all that those of the first bind. If the two modules can be imported, the second has all names of the first, in the same modules
and classes, the same modules for namespaces, and a class that is a subclass of another one in the first is so in the second. -/
theorem C86_module (U : TransUnit) (w : Wishes) (hle : (wishesOf U.env.cfg).Le w) (o o' : Opts) (fs fs' gs gs' : FS) (hw : fs.WF) (hw' : gs.WF)
    (hn : U.visits.length + 1 < 2 ^ 32) (hd : DistinctNames U o) (hd' : DistinctNames U o')
    (h : U.Ends o fs (.done fs')) (h' : (wishing U w).Ends o' gs (.done gs')) :
    ∃ srcs srcs' root root' pairs pairs', Generated U o fs fs' srcs ∧ Generated (wishing U w) o' gs gs' srcs' ∧
      fs'.files (rootPath o) = some root ∧ gs'.files (rootPath o') = some root' ∧ MakesModules root pairs ∧ MakesModules root' pairs' ∧
      (∀ v ∈ srcs.flatMap Source.bound, v ∈ srcs'.flatMap Source.bound) ∧
      ∀ p p', importModule pairs (importOps U.E srcs) = some p → importModule pairs' (importOps (wishing U w).E srcs') = some p' →
        (∀ s n, (p.own s n).isSome = true → (p'.own s n).isSome = true) ∧ (∀ n ∈ p.modules, n ∈ p'.modules) ∧
        ∀ q r, p.isSubclass q r → p'.isSubclass q r := by
  have hr := C86_reached U w hle o' gs gs' h'
  obtain ⟨st, bs, files, fs1, fs2, h⟩ := ends_done h
  obtain ⟨st', bs', files', gs1, gs2, h'⟩ := ends_done h'
  have hroot := (congrArg (fun x : FS => x.files (rootPath o)) h.finish).trans (by rw [finishRun_root])
  have hroot' := (congrArg (fun x : FS => x.files (rootPath o')) h'.finish).trans (by rw [finishRun_root])
  have hg := generated_of_done h hw hn hd
  have hg' := generated_of_done h' hw' hn (wishing_distinct w hd')
  have hpairs : subModules (allNestedNamespaces bs) ⊆ subModules (allNestedNamespaces bs') := by
    refine List.map_subset _ (List.filter_subset _ ?_)
    intro n hn1
    obtain ⟨b, hb, hc, ha⟩ := mem_allNested.1 hn1
    have hv := hr _ (h.reached hb hc)
    obtain ⟨b', hb', e⟩ := h'.item_of hv.considered
    have hvb := h'.visitOf hb'
    have e' : visitOf (wishing U w) b' = visitOf U b := considered_inj hvb.1 hv.considered (hvb.2.1.symm.trans e)
    have ens : b'.decl.ns = b.decl.ns := by
      rw [e, (h.visitOf hb).2.1, decl_ns, decl_ns, wishing_namespaceOf]
    refine mem_allNested.2 ⟨b', hb', ?_, by rw [ens]; exact ha⟩
    rw [e'] at hvb
    rw [hvb.2.2.1 hv]
    exact bindingOf_ne_nil hv
  refine ⟨_, _, _, _, subModules (allNestedNamespaces bs), subModules (allNestedNamespaces bs'), hg, hg', hroot, hroot',
    (makesModules_root U.E.cfg o (allNestedNamespaces bs) files).right _, (makesModules_root _ o' (allNestedNamespaces bs') files').right _, ?_, ?_⟩
  · intro v hv
    obtain ⟨h1, h2⟩ := (hg.exactly v).1 hv
    refine (hg'.exactly v).2 ⟨hr v h1, ?_⟩
    rw [wishing_namespaceOf, wishing_E]
    exact h2
  · intro p p' hp hp'
    refine ⟨?_, ?_, ?_⟩
    · intro s n hs
      rcases (C84_names U o fs fs' _ hg _ p hp s n).1.1 hs with ⟨op, kind, hm, hk⟩ | ⟨x, hx, hx'⟩
      · obtain ⟨op', hm', hsub⟩ := wishing_made hle hr hm
        exact (C84_names (wishing U w) o' gs gs' _ hg' _ p' hp' s n).1.2 (.inl ⟨op', kind, hm', hsub hk⟩)
      · exact (C84_names (wishing U w) o' gs gs' _ hg' _ p' hp' s n).1.2 (.inr ⟨x, hpairs hx, hx'⟩)
    · obtain ⟨p0, h0, h1⟩ := importModule_some hp
      obtain ⟨p0', h0', h1'⟩ := importModule_some hp'
      obtain ⟨_, hm, _⟩ := makeModules_state h0
      obtain ⟨_, hm', _⟩ := makeModules_state h0'
      intro n hn'
      rw [show p.modules = p0.modules from execAll_modules _ h1, hm] at hn'
      rw [show p'.modules = p0'.modules from execAll_modules _ h1', hm']
      exact hn'.imp id fun ⟨x, hx, e⟩ => ⟨x, hpairs hx, e⟩
    · intro q r hqr
      rw [C84_subclass _ _ _ _ _ hg _ _ hp] at hqr
      rw [C84_subclass _ _ _ _ _ hg' _ _ hp']
      exact wishing_derives hle hr hqr

/-- C86. Configuration files: if lines that ask for a namespace, class, function or enumeration are added anywhere, and lines that leave
something out (also data members) are removed, the configuration read is the same apart from its wishes, and has more of them. -/
theorem C86_files (c c1 c2 : Config) (a b : Str) (h : Relaxed (getlines a) (getlines b)) (h1 : readConfig c a = .ok c1) (h2 : readConfig c b = .ok c2) :
    (wishesOf c1).Le (wishesOf c2) ∧ c2 = withWishes c1 (wishesOf c2) := by
  rw [readConfig, readLines_ok_iff] at h1 h2
  rw [h1.2, h2.2]
  exact below_relaxed h (Below.refl c)

/-! ## An example -/

/-- The wishes of `Ex.unit`, `+namespace n`, and in addition `+class m::T`. -/
def Ex.more : Wishes := { wishesOf Ex.unit.env.cfg with bindClasses := [c!"m::T"] }

/-- The hypotheses of the theorems are met by `Ex.unit`; with the additional wish a class is bound that was not. -/
example : (wishesOf Ex.unit.env.cfg).Le Ex.more ∧
    (∃ fs', Ex.unit.Ends (Ex.opts 1000) Ex.fsEmpty (.done fs') ∧
      (fs'.files c!"out/m.cpp").any (fun t => (Str.rfind c!"cl(M(\"m\"), \"T\"" t).isNone) = true) ∧
    (∃ fs', (wishing Ex.unit Ex.more).Ends (Ex.opts 1000) Ex.fsEmpty (.done fs') ∧
      (fs'.files c!"out/m.cpp").any (fun t => (Str.rfind c!"cl(M(\"m\"), \"T\"" t).isSome) = true) :=
  ⟨⟨fun _ h => h, fun _ h => h, nofun, fun _ h => h, fun _ h => h, fun _ h => h, fun _ h => h, fun _ h => h, fun _ h => h⟩,
    Ex.ends_after (n := 20) (by decide +kernel), Ex.ends_after (n := 20) (by decide +kernel)⟩

/-- Two files as in `C86_files`. -/
example : Relaxed (getlines c!"+namespace n\n-class n::A\n") (getlines c!"+class m::T\n+namespace n\n") :=
  .added ⟨c!"class", c!"m::T", by decide, by decide⟩ (.same (.removed ⟨c!"class", c!"n::A", by decide, by decide⟩ .nil))

end Binder
