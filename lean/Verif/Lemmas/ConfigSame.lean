import Verif.Lemmas.ConfigQuery
import Verif.Model.Builtin
import Verif.Model.Files

/-! # Decisions depend only on the sets of entries -/

namespace Binder

open Spec (stripCR Ignored directive noSpaces twoWords stripBlanks WellFormed given givenEither lastFor allFor Matched Beats Conflict Longest)

theorem longest_congr {a b : List Str} (h : ∀ x, x ∈ a ↔ x ∈ b) (ns e : Str) : Longest a ns e ↔ Longest b ns e := by
  simp [Longest, h]

theorem matched_congr {a b : List Str} (h : ∀ x, x ∈ a ↔ x ∈ b) (ns : Str) : Matched a ns ↔ Matched b ns := by
  simp [Matched, h]

theorem beats_congr {a b a' b' : List Str} (h : ∀ x, x ∈ a ↔ x ∈ a') (h' : ∀ x, x ∈ b ↔ x ∈ b') (ns : Str) :
    Beats a b ns ↔ Beats a' b' ns := by simp [Beats, longest_congr h, h']

theorem conflict_congr {a b a' b' : List Str} (h : ∀ x, x ∈ a ↔ x ∈ a') (h' : ∀ x, x ∈ b ↔ x ∈ b') (ns : Str) :
    Conflict a b ns ↔ Conflict a' b' ns := by simp [Conflict, longest_congr h, longest_congr h']

theorem bindingRequested_true {c : Config} {ns : Str} : namespaceBindingRequested c ns = .ok true ↔
    Beats c.namespacesToBind c.namespacesToSkip ns ∨
      (¬ Matched c.namespacesToBind ns ∧ ¬ Matched c.namespacesToSkip ns ∧ [] ∈ c.namespacesToBind) := by
  have hb := scanBind_spec ns c.namespacesToBind
  have hs := scanPlain_spec ns c.namespacesToSkip
  unfold namespaceBindingRequested
  revert hb hs
  generalize scanBind ns c.namespacesToBind = p
  generalize scanPlain ns c.namespacesToSkip = q
  obtain ⟨b, bf⟩ := p
  obtain ⟨s, sf⟩ := q
  rintro ⟨hb, hbf⟩ ⟨hs, hsf⟩
  dsimp only at *
  rw [beats_iff hb hs, scanInv_matched hb, scanInv_matched hs]
  rw [scanInv_matched hb] at hbf
  rw [scanInv_matched hs] at hsf
  by_cases h1 : b.length > s.length
  · simp [h1]
  · by_cases h2 : b.length < s.length
    · have : s ≠ [] := by intro h; subst h; simp at h2
      simp [h1, h2, this]
    · have hl : b.length = s.length := by omega
      have hz : b = [] ↔ s = [] := by rw [← List.length_eq_zero_iff, ← List.length_eq_zero_iff, hl]
      simp only [h1, h2, if_false, false_or]
      by_cases h0 : s = []
      · have hsf' : sf = false := by cases sf <;> simp_all
        subst hsf'
        simp [h0, hz.2 h0] at hbf ⊢
        cases bf <;> simp_all
      · have : sf = true := hsf.2 h0
        have hb0 : bf = true := hbf.2 (Or.inl (fun h => h0 (hz.1 h)))
        simp [this, hb0, h0]

theorem bindingRequested_error {c : Config} {ns : Str} {e : QueryError} : namespaceBindingRequested c ns = .error e ↔
    e = .conflict ns ∧ Conflict c.namespacesToBind c.namespacesToSkip ns := by
  have hb := scanBind_spec ns c.namespacesToBind
  have hs := scanPlain_spec ns c.namespacesToSkip
  unfold namespaceBindingRequested
  revert hb hs
  generalize scanBind ns c.namespacesToBind = p
  generalize scanPlain ns c.namespacesToSkip = q
  obtain ⟨b, bf⟩ := p
  obtain ⟨s, sf⟩ := q
  rintro ⟨hb, hbf⟩ ⟨hs, hsf⟩
  dsimp only at *
  rw [conflict_iff hb hs]
  rw [scanInv_matched hb] at hbf
  rw [scanInv_matched hs] at hsf
  by_cases h1 : b.length > s.length
  · have : b.length ≠ s.length := by omega
    simp [h1, this]
  · by_cases h2 : b.length < s.length
    · have : b.length ≠ s.length := by omega
      simp [h1, h2, this]
    · have hl : b.length = s.length := by omega
      have hz : b = [] ↔ s = [] := by rw [← List.length_eq_zero_iff, ← List.length_eq_zero_iff, hl]
      simp only [hl, true_and]
      by_cases h0 : s = []
      · have hsf' : sf = false := by cases sf <;> simp_all
        subst hsf'
        simp only [Bool.and_false, Bool.false_eq_true, if_false, hz.2 h0]
        cases bf <;> simp
      · have : sf = true := hsf.2 h0
        have hbn : b ≠ [] := fun h => h0 (hz.1 h)
        have hb0 : bf = true := hbf.2 (Or.inl hbn)
        simp [this, hb0, hbn]
        exact eq_comm

theorem skippingRequested_true {c : Config} {ns : Str} : namespaceSkippingRequested c ns = .ok true ↔
    Beats c.namespacesToSkip c.namespacesToBind ns := by
  have hb := scanPlain_spec ns c.namespacesToBind
  have hs := scanPlain_spec ns c.namespacesToSkip
  unfold namespaceSkippingRequested
  revert hb hs
  generalize scanPlain ns c.namespacesToBind = p
  generalize scanPlain ns c.namespacesToSkip = q
  obtain ⟨b, bf⟩ := p
  obtain ⟨s, sf⟩ := q
  rintro ⟨hb, hbf⟩ ⟨hs, hsf⟩
  dsimp only at *
  rw [beats_iff hs hb]
  rw [scanInv_matched hb] at hbf
  rw [scanInv_matched hs] at hsf
  by_cases h1 : b.length > s.length
  · have : ¬ s.length > b.length := by omega
    simp [h1]; omega
  · by_cases h2 : b.length < s.length
    · simp [h1, h2]
    · have hl : b.length = s.length := by omega
      have hz : b = [] ↔ s = [] := by rw [← List.length_eq_zero_iff, ← List.length_eq_zero_iff, hl]
      simp only [h1, h2, if_false]
      by_cases h0 : s = []
      · have hsf' : sf = false := by cases sf <;> simp_all
        subst hsf'; simp
      · have : sf = true := hsf.2 h0
        have hbn : b ≠ [] := fun h => h0 (hz.1 h)
        have hb0 : bf = true := hbf.2 hbn
        simp [this, hb0]

theorem skippingRequested_error {c : Config} {ns : Str} {e : QueryError} : namespaceSkippingRequested c ns = .error e ↔
    e = .conflict ns ∧ Conflict c.namespacesToBind c.namespacesToSkip ns := by
  have hb := scanPlain_spec ns c.namespacesToBind
  have hs := scanPlain_spec ns c.namespacesToSkip
  unfold namespaceSkippingRequested
  revert hb hs
  generalize scanPlain ns c.namespacesToBind = p
  generalize scanPlain ns c.namespacesToSkip = q
  obtain ⟨b, bf⟩ := p
  obtain ⟨s, sf⟩ := q
  rintro ⟨hb, hbf⟩ ⟨hs, hsf⟩
  dsimp only at *
  rw [conflict_iff hb hs]
  rw [scanInv_matched hb] at hbf
  rw [scanInv_matched hs] at hsf
  by_cases h1 : b.length > s.length
  · have : b.length ≠ s.length := by omega
    simp [h1, this]
  · by_cases h2 : b.length < s.length
    · have : b.length ≠ s.length := by omega
      simp [h1, h2, this]
    · have hl : b.length = s.length := by omega
      have hz : b = [] ↔ s = [] := by rw [← List.length_eq_zero_iff, ← List.length_eq_zero_iff, hl]
      simp only [hl, true_and]
      by_cases h0 : s = []
      · have hsf' : sf = false := by cases sf <;> simp_all
        subst hsf'
        simp [hz.2 h0]
      · have : sf = true := hsf.2 h0
        have hbn : b ≠ [] := fun h => h0 (hz.1 h)
        have hb0 : bf = true := hbf.2 hbn
        simp [this, hb0, hbn]
        exact eq_comm

theorem except_bool_eq {α : Type} {a b : Except α Bool} (h1 : a = .ok true ↔ b = .ok true) (h2 : ∀ e, a = .error e ↔ b = .error e) :
    a = b := by
  cases a with
  | error e => exact ((h2 e).1 rfl).symm
  | ok x =>
    cases b with
    | error e => have := (h2 e).2 rfl; cases this
    | ok y => cases x <;> cases y <;> simp_all

/-- Two configurations with the same sets of entries. -/
structure SameEntries (c c' : Config) : Prop where
  namespacesToBind : ∀ x, x ∈ c.namespacesToBind ↔ x ∈ c'.namespacesToBind
  namespacesToSkip : ∀ x, x ∈ c.namespacesToSkip ↔ x ∈ c'.namespacesToSkip
  classesToBind : ∀ x, x ∈ c.classesToBind ↔ x ∈ c'.classesToBind
  classesToSkip : ∀ x, x ∈ c.classesToSkip ↔ x ∈ c'.classesToSkip
  enumsToBind : ∀ x, x ∈ c.enumsToBind ↔ x ∈ c'.enumsToBind
  enumsToSkip : ∀ x, x ∈ c.enumsToSkip ↔ x ∈ c'.enumsToSkip
  functionsToBind : ∀ x, x ∈ c.functionsToBind ↔ x ∈ c'.functionsToBind
  functionsToSkip : ∀ x, x ∈ c.functionsToSkip ↔ x ∈ c'.functionsToSkip
  includesToSkip : ∀ x, x ∈ c.includesToSkip ↔ x ∈ c'.includesToSkip
  fieldsToSkip : ∀ x, x ∈ c.fieldsToSkip ↔ x ∈ c'.fieldsToSkip
  bufferProtocols : ∀ x, x ∈ c.bufferProtocols ↔ x ∈ c'.bufferProtocols
  moduleLocalToAdd : ∀ x, x ∈ c.moduleLocalToAdd ↔ x ∈ c'.moduleLocalToAdd
  moduleLocalToSkip : ∀ x, x ∈ c.moduleLocalToSkip ↔ x ∈ c'.moduleLocalToSkip
  smartHeldClasses : ∀ x, x ∈ c.smartHeldClasses ↔ x ∈ c'.smartHeldClasses
  pythonBuiltins : ∀ x, x ∈ c.pythonBuiltins ↔ x ∈ c'.pythonBuiltins
  notPythonBuiltins : ∀ x, x ∈ c.notPythonBuiltins ↔ x ∈ c'.notPythonBuiltins

theorem contains_congr {a b : List Str} (h : ∀ x, x ∈ a ↔ x ∈ b) (x : Str) : a.contains x = b.contains x := by
  have : a.contains x = true ↔ b.contains x = true := by simp [h]
  cases ha : a.contains x <;> cases hb : b.contains x <;> simp_all

theorem any_congr_mem {a b : List Str} (h : ∀ x, x ∈ a ↔ x ∈ b) (p : Str → Bool) : a.any p = b.any p := by
  have : a.any p = true ↔ b.any p = true := by simp [h]
  cases ha : a.any p <;> cases hb : b.any p <;> simp_all

theorem given_mem_congr {ls ls' : List Str} (h : ∀ l, l ∈ ls ↔ l ∈ ls') (s : Char) (k x : Str) :
    x ∈ given s k ls ↔ x ∈ given s k ls' := by simp [given, h]

theorem field_mem_congr {f : Config → List Str} {b : Bool} {k : Str}
    (hf : ∀ c b' tok name, f (fieldEffect c b' tok name) = addList (f c) b' b tok k name)
    {c c' : Config} (hc : ∀ x, x ∈ f c ↔ x ∈ f c')
    {ls ls' : List Str} (h : ∀ l, l ∈ ls ↔ l ∈ ls') (x : Str) :
    x ∈ f (ls.foldl lineEffect c) ↔ x ∈ f (ls'.foldl lineEffect c') := by
  rw [foldl_list (s := if b then '+' else '-') (list_step rfl hf), foldl_list (s := if b then '+' else '-') (list_step rfl hf)]
  simp [given_mem_congr h, hc]

theorem sameEntries_foldl {c c' : Config} (hc : SameEntries c c') {ls ls' : List Str} (h : ∀ l, l ∈ ls ↔ l ∈ ls') :
    SameEntries (ls.foldl lineEffect c) (ls'.foldl lineEffect c') where
  namespacesToBind := field_mem_congr (f := Config.namespacesToBind) (fun _ _ _ _ => rfl) hc.1 h
  namespacesToSkip := field_mem_congr (f := Config.namespacesToSkip) (fun _ _ _ _ => rfl) hc.2 h
  classesToBind := field_mem_congr (f := Config.classesToBind) (fun _ _ _ _ => rfl) hc.3 h
  classesToSkip := field_mem_congr (f := Config.classesToSkip) (fun _ _ _ _ => rfl) hc.4 h
  enumsToBind := field_mem_congr (f := Config.enumsToBind) (fun _ _ _ _ => rfl) hc.5 h
  enumsToSkip := field_mem_congr (f := Config.enumsToSkip) (fun _ _ _ _ => rfl) hc.6 h
  functionsToBind := field_mem_congr (f := Config.functionsToBind) (fun _ _ _ _ => rfl) hc.7 h
  functionsToSkip := field_mem_congr (f := Config.functionsToSkip) (fun _ _ _ _ => rfl) hc.8 h
  includesToSkip := field_mem_congr (f := Config.includesToSkip) (fun _ _ _ _ => rfl) hc.9 h
  fieldsToSkip := field_mem_congr (f := Config.fieldsToSkip) (fun _ _ _ _ => rfl) hc.10 h
  bufferProtocols := field_mem_congr (f := Config.bufferProtocols) (fun _ _ _ _ => rfl) hc.11 h
  moduleLocalToAdd := field_mem_congr (f := Config.moduleLocalToAdd) (fun _ _ _ _ => rfl) hc.12 h
  moduleLocalToSkip := field_mem_congr (f := Config.moduleLocalToSkip) (fun _ _ _ _ => rfl) hc.13 h
  smartHeldClasses := field_mem_congr (f := Config.smartHeldClasses) (fun _ _ _ _ => rfl) hc.14 h
  pythonBuiltins := field_mem_congr (f := Config.pythonBuiltins) (fun _ _ _ _ => rfl) hc.15 h
  notPythonBuiltins := field_mem_congr (f := Config.notPythonBuiltins) (fun _ _ _ _ => rfl) hc.16 h

theorem sameEntries_refl (c : Config) : SameEntries c c := by constructor <;> simp

/-! ## Reading twice -/

theorem or_self_map (o : Option Str) (x : Option Str) : o.or (o.or x) = o.or x := by cases o <;> rfl

theorem same_map {f : Config → Str → Option Str} {k : Str} {g : Str → Str}
    (h : ∀ c l key, f (lineEffect c l) key = ((lastFor k key [l]).map g).or (f c key)) (c c' : Config) (ls : List Str)
    (hc : f c' = f (ls.foldl lineEffect c)) : f (ls.foldl lineEffect c') = f (ls.foldl lineEffect c) := by
  funext key
  rw [foldl_map h, hc, foldl_map h, or_self_map]

theorem same_scalar {f : Config → Str} {k : Str}
    (h : ∀ c l, f (lineEffect c l) = ((givenEither k [l]).getLast?.map noSpaces).getD (f c)) (c c' : Config) (ls : List Str)
    (hc : f c' = f (ls.foldl lineEffect c)) : f (ls.foldl lineEffect c') = f (ls.foldl lineEffect c) := by
  rw [foldl_scalar h, hc, foldl_scalar h]
  cases (givenEither k ls).getLast? <;> rfl

theorem same_incs {f : Config → Str → List Str} {k : Str}
    (h : ∀ c l key, f (lineEffect c l) key = f c key ++ allFor k key [l]) (c c' : Config) (ls : List Str)
    (hc : f c' = f (ls.foldl lineEffect c)) (key i : Str) :
    i ∈ f (ls.foldl lineEffect c') key ↔ i ∈ f (ls.foldl lineEffect c) key := by
  rw [foldl_incs h, hc, foldl_incs h]
  simp

theorem same_list {f : Config → List Str} {s : Char} {k : Str}
    (h : ∀ c l, f (lineEffect c l) = f c ++ (given s k [l]).map noSpaces) (c c' : Config) (ls : List Str)
    (hc : f c' = f (ls.foldl lineEffect c)) (i : Str) :
    i ∈ f (ls.foldl lineEffect c') ↔ i ∈ f (ls.foldl lineEffect c) := by
  rw [foldl_list h, hc, foldl_list h]
  simp only [List.mem_append]
  constructor
  · rintro ((h | h) | h)
    · exact Or.inl h
    · exact Or.inr h
    · exact Or.inr h
  · exact Or.inl

theorem sameEntries_symm {c c' : Config} (h : SameEntries c c') : SameEntries c' c := by
  obtain ⟨h1, h2, h3, h4, h5, h6, h7, h8, h9, h10, h11, h12, h13, h14, h15, h16⟩ := h
  constructor <;> intro x <;> simp_all

/-- The second reading, after the namespace lists were reset to the command line options. -/
theorem sameEntries_reread (c : Config) (o : BindOptions) (ls : List Str) :
    let c1 := ls.foldl lineEffect { c with namespacesToBind := o.bind, namespacesToSkip := o.skip }
    SameEntries c1 (ls.foldl lineEffect { c1 with namespacesToBind := o.bind, namespacesToSkip := o.skip }) := by
  intro c1
  apply sameEntries_symm
  constructor
  · intro x
    rw [foldl_list (f := Config.namespacesToBind) (list_step (b := true) rfl (fun _ _ _ _ => rfl)),
      foldl_list (f := Config.namespacesToBind) (list_step (b := true) rfl (fun _ _ _ _ => rfl))]
  · intro x
    rw [foldl_list (f := Config.namespacesToSkip) (list_step (b := false) rfl (fun _ _ _ _ => rfl)),
      foldl_list (f := Config.namespacesToSkip) (list_step (b := false) rfl (fun _ _ _ _ => rfl))]
  · exact same_list (f := Config.classesToBind) (list_step (b := true) rfl (fun _ _ _ _ => rfl)) _ _ _ rfl
  · exact same_list (f := Config.classesToSkip) (list_step (b := false) rfl (fun _ _ _ _ => rfl)) _ _ _ rfl
  · exact same_list (f := Config.enumsToBind) (list_step (b := true) rfl (fun _ _ _ _ => rfl)) _ _ _ rfl
  · exact same_list (f := Config.enumsToSkip) (list_step (b := false) rfl (fun _ _ _ _ => rfl)) _ _ _ rfl
  · exact same_list (f := Config.functionsToBind) (list_step (b := true) rfl (fun _ _ _ _ => rfl)) _ _ _ rfl
  · exact same_list (f := Config.functionsToSkip) (list_step (b := false) rfl (fun _ _ _ _ => rfl)) _ _ _ rfl
  · exact same_list (f := Config.includesToSkip) (list_step (b := false) rfl (fun _ _ _ _ => rfl)) _ _ _ rfl
  · exact same_list (f := Config.fieldsToSkip) (list_step (b := false) rfl (fun _ _ _ _ => rfl)) _ _ _ rfl
  · exact same_list (f := Config.bufferProtocols) (list_step (b := true) rfl (fun _ _ _ _ => rfl)) _ _ _ rfl
  · exact same_list (f := Config.moduleLocalToAdd) (list_step (b := true) rfl (fun _ _ _ _ => rfl)) _ _ _ rfl
  · exact same_list (f := Config.moduleLocalToSkip) (list_step (b := false) rfl (fun _ _ _ _ => rfl)) _ _ _ rfl
  · exact same_list (f := Config.smartHeldClasses) (list_step (b := true) rfl (fun _ _ _ _ => rfl)) _ _ _ rfl
  · exact same_list (f := Config.pythonBuiltins) (list_step (b := true) rfl (fun _ _ _ _ => rfl)) _ _ _ rfl
  · exact same_list (f := Config.notPythonBuiltins) (list_step (b := false) rfl (fun _ _ _ _ => rfl)) _ _ _ rfl

end Binder
