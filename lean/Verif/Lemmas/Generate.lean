import Verif.Model.Generate
import Verif.Lemmas.Strings

/-!
# The writing loop of `Context::generate`
-/

namespace Binder

/-! ## Index arithmetic -/

theorem uintInc_of_lt {i : Nat} (h : i + 1 < 2 ^ 32) : uintInc i = i + 1 := Nat.mod_eq_of_lt h

theorem uintInc_dec {i : Nat} (h : i < 2 ^ 32) : uintInc (uintDec i) = i := by
  unfold uintInc uintDec
  cases i with
  | zero => decide
  | succ i =>
    rw [show i + 1 + 2 ^ 32 - 1 = i + 2 ^ 32 by omega, Nat.add_mod_right, Nat.mod_eq_of_lt (by omega : i < 2 ^ 32),
      Nat.mod_eq_of_lt h]

/-! ## The inner loop -/

/-- What one declaration adds. -/
def entry (o : Opts) (t : Nat) (b : SortItem) : List Piece :=
  (if o.trace then [.trace t b.decl.ident] else []) ++ (if b.code.length != 0 then [.code b] else [])

/-- What a list of declarations adds. -/
def emit (o : Opts) : Nat → List SortItem → List Piece
  | _, [] => []
  | t, b :: bs => entry o t b ++ emit o (if o.trace then t + 1 else t) bs

theorem emit_append (o : Opts) (t : Nat) (a b : List SortItem) :
    emit o t (a ++ b) = emit o t a ++ emit o (if o.trace then t + a.length else t) b := by
  induction a generalizing t with
  | nil => simp [emit]
  | cons x xs ih =>
    simp only [List.cons_append, emit, ih, List.append_assoc, List.length_cons]
    congr 3
    split <;> omega

/-- Result of the inner loop. -/
structure FillSpec (o : Opts) (ns : Str) (skip : Bool) (l : List SortItem) (s f : Fill) (k : Nat) : Prop where
  le : k ≤ l.length
  i : f.i = s.i + k
  same : ∀ b ∈ l.take k, b.decl.ns = ns
  body : f.body = if skip then s.body else s.body ++ emit o s.traced (l.take k)
  traced : f.traced = if skip then s.traced else if o.trace then s.traced + k else s.traced
  size : ∀ u b, l.take k = u ++ [b] → (codeText (if skip then s.body else s.body ++ emit o s.traced u)).length < o.maxLen
  stop : k < l.length → (codeText f.body).length < o.maxLen → ∀ b, l[k]? = some b → b.decl.ns ≠ ns
  pre : f.pre = if skip then s.pre else s.pre ++ (l.take k).flatMap SortItem.pre
  incl : ∀ b ∈ l.take k, skip = false → b.code ≠ [] → ∀ x ∈ b.decl.includes, x ∈ f.includes
  inclKeep : ∀ x ∈ s.includes, x ∈ f.includes
  inclTrace : skip = false → o.trace = true → 0 < k → traceInclude o ∈ f.includes

theorem fillBody_body (o : Opts) (skip : Bool) (b : SortItem) (s : Fill) :
    (fillBody o skip b s).body = if skip then s.body else s.body ++ entry o s.traced b := by
  unfold fillBody entry
  cases skip <;> cases o.trace <;> simp <;> split <;> simp

theorem fillBody_traced (o : Opts) (skip : Bool) (b : SortItem) (s : Fill) :
    (fillBody o skip b s).traced = if skip then s.traced else if o.trace then s.traced + 1 else s.traced := by
  unfold fillBody
  cases skip <;> cases o.trace <;> simp <;> split <;> simp

theorem fillBody_i (o : Opts) (skip : Bool) (b : SortItem) (s : Fill) : (fillBody o skip b s).i = uintInc s.i := by
  unfold fillBody
  cases skip <;> cases o.trace <;> simp <;> split <;> simp

theorem fillBody_pre (o : Opts) (skip : Bool) (b : SortItem) (s : Fill) :
    (fillBody o skip b s).pre = if skip then s.pre else s.pre ++ b.pre := by
  unfold fillBody
  cases skip <;> cases o.trace <;> simp <;> split <;> simp

theorem fillBody_includes (o : Opts) (skip : Bool) (b : SortItem) (s : Fill) :
    (fillBody o skip b s).includes = if skip then s.includes else
      s.includes ++ (if o.trace then [traceInclude o] else []) ++ (if b.code.length != 0 then b.decl.includes else []) := by
  unfold fillBody
  cases skip <;> cases o.trace <;> simp <;> split <;> simp

theorem fill_spec (o : Opts) (ns : Str) (skip : Bool) (l : List SortItem) (s : Fill) (h : s.i + l.length < 2 ^ 32) :
    ∃ k, FillSpec o ns skip l s (fill o ns skip l s) k := by
  induction l generalizing s with
  | nil =>
    refine ⟨0, by simp, by simp [fill], by simp, ?_, ?_, by simp, by simp, ?_, by simp, by simp [fill], by simp⟩
    · simp [fill, emit]
    · simp [fill]
    · simp [fill]
  | cons b bs ih =>
    rw [fill]
    split
    · rename_i hc
      have hi : (fillBody o skip b s).i = s.i + 1 := by
        rw [fillBody_i, uintInc_of_lt]; simp at h; omega
      obtain ⟨k, hk⟩ := ih (fillBody o skip b s) (by rw [hi]; simp at h; omega)
      refine ⟨k + 1, ?_, ?_, ?_, ?_, ?_, ?_, ?_, ?_, ?_, ?_, ?_⟩
      · have := hk.le; simp; omega
      · rw [hk.i, hi]; omega
      · intro x hx
        rw [List.take_succ_cons] at hx
        rcases List.mem_cons.1 hx with rfl | hx
        · exact hc.2.symm
        · exact hk.same x hx
      · rw [hk.body, fillBody_body, fillBody_traced]
        cases skip with
        | true => simp
        | false => simp [emit]
      · rw [hk.traced, fillBody_traced]
        cases skip <;> cases o.trace <;> simp; omega
      · intro u x hu
        rw [List.take_succ_cons] at hu
        cases u with
        | nil =>
          have : (if skip then s.body else s.body ++ emit o s.traced []) = s.body := by split <;> simp [emit]
          rw [this]; exact hc.1
        | cons y ys =>
          rw [List.cons_append] at hu
          injection hu with h1 h2
          subst h1
          have := hk.size ys x h2
          rw [fillBody_body, fillBody_traced] at this
          cases skip with
          | true => simpa using this
          | false => simpa [emit] using this
      · intro hlt hsz x hx
        exact hk.stop (by simp at hlt; omega) hsz x (by simpa using hx)
      · rw [hk.pre, fillBody_pre]
        cases skip <;> simp
      · intro x hx hs hcode y hy
        rw [List.take_succ_cons] at hx
        rcases List.mem_cons.1 hx with rfl | hx
        · refine hk.inclKeep y ?_
          rw [fillBody_includes, hs]
          have : x.code.length != 0 := by
            simpa [List.length_eq_zero_iff] using hcode
          simp [this, hy]
        · exact hk.incl x hx hs hcode y hy
      · intro y hy
        refine hk.inclKeep y ?_
        rw [fillBody_includes]
        cases skip <;> simp [hy]
      · intro hs ht _
        refine hk.inclKeep _ ?_
        rw [fillBody_includes, hs, ht]; simp
    · rename_i hc
      refine ⟨0, by simp, by simp, by simp, by simp [emit], by simp, by simp, ?_, by simp, by simp, by simp, by simp⟩
      intro _ hsz x hx hns
      simp at hx; subst hx
      exact hc ⟨hsz, hns.symm⟩

/-! ## One iteration of the outer loop -/

/-- A file written in one iteration that starts at a bound declaration. -/
structure WriteSpec (c : Config) (o : Opts) (bs : List SortItem) (s s' : GenState) (b : SortItem) (F : OutFile) (k : Nat) : Prop where
  files : s'.files = s.files ++ [F]
  le : s.i + k ≤ bs.length
  i : s'.i = s.i + k ∨ (s.i + k = bs.length ∧ s'.i = bs.length + 1)
  fileNames : s'.fileNames = bump s.fileNames (fileKey o b)
  entrance : s'.entrance = bump s.entrance b.decl.ns
  name : F.name = fileStem o (fileKey o b) (s.fileNames (fileKey o b)) ++ c!".cpp"
  fn : F.fn = functionName (fileStem o (fileKey o b) (s.fileNames (fileKey o b)))
  ns : F.ns = b.decl.ns
  taken : ∀ x ∈ (bs.drop s.i).take k, x.decl.ns = b.decl.ns
  body : F.body = startBody c b.decl.ns (s.entrance b.decl.ns == 0) ++
    (if (c.binderForNamespaces b.decl.ns).isSome then [] else emit o s.traced ((bs.drop s.i).take k))
  traced : s'.traced = if (c.binderForNamespaces b.decl.ns).isSome then s.traced else if o.trace then s.traced + k else s.traced
  size : ∀ u x, (bs.drop s.i).take k = u ++ [x] →
    (codeText (startBody c b.decl.ns (s.entrance b.decl.ns == 0) ++
      (if (c.binderForNamespaces b.decl.ns).isSome then [] else emit o s.traced u))).length < o.maxLen
  stuck : k = 0 → o.maxLen ≤ (codeText (startBody c b.decl.ns (s.entrance b.decl.ns == 0))).length
  stop : s.i + k < bs.length → (codeText F.body).length < o.maxLen → ∀ x, bs[s.i + k]? = some x → x.decl.ns ≠ b.decl.ns
  pre : F.pre = if (c.binderForNamespaces b.decl.ns).isSome then [] else ((bs.drop s.i).take k).flatMap SortItem.pre
  incl : ∀ x, Piece.code x ∈ F.body → ∀ y ∈ x.decl.includes, y ∈ F.includes
  inclNs : ∀ y ∈ c.namespaceIncludes b.decl.ns, y ∈ F.includes
  inclTrace : ∀ n id, Piece.trace n id ∈ F.body → traceInclude o ∈ F.includes

theorem isEmpty_iff_nil (s : Str) : s.isEmpty = true ↔ s = [] := List.isEmpty_iff

/-- A piece `code` or `trace` comes from a declaration. -/
theorem code_mem_emit {o : Opts} {t : Nat} {l : List SortItem} {x : SortItem} (h : Piece.code x ∈ emit o t l) :
    x ∈ l ∧ x.code ≠ [] := by
  induction l generalizing t with
  | nil => simp [emit] at h
  | cons b bs ih =>
    simp only [emit, List.mem_append] at h
    rcases h with h | h
    · simp only [entry, List.mem_append] at h
      rcases h with h | h
      · split at h <;> simp at h
      · split at h
        · rename_i hc
          simp at h; subst h
          exact ⟨by simp, by simpa using hc⟩
        · simp at h
    · obtain ⟨h1, h2⟩ := ih h
      exact ⟨by simp [h1], h2⟩

theorem startBody_no_code {c : Config} {ns : Str} {first : Bool} (x : SortItem) : Piece.code x ∉ startBody c ns first := by
  unfold startBody
  cases c.binderForNamespaces ns <;> cases c.addOnBinderForNamespaces ns <;> cases first <;> simp
  split <;> simp

theorem startBody_no_trace {c : Config} {ns : Str} {first : Bool} (n : Nat) (id : Str) :
    Piece.trace n id ∉ startBody c ns first := by
  unfold startBody
  cases c.binderForNamespaces ns <;> cases c.addOnBinderForNamespaces ns <;> cases first <;> simp
  split <;> simp

theorem startBody_not_first (c : Config) (ns : Str) : startBody c ns false = [] := by
  unfold startBody
  cases c.binderForNamespaces ns <;> cases c.addOnBinderForNamespaces ns <;> simp

theorem nsCall_text_ne (f ns : Str) : (codeText [Piece.nsCall f ns]).isEmpty = false := by
  simp [codeText, Piece.text]

theorem startBody_first_ns {c : Config} {ns f : Str} (h : c.binderForNamespaces ns = some f) :
    startBody c ns true = [.nsCall f ns] := by
  unfold startBody
  rw [h]
  cases c.addOnBinderForNamespaces ns <;> simp [nsCall_text_ne]

theorem startBody_first_addOn {c : Config} {ns f : Str} (h : c.binderForNamespaces ns = none)
    (h' : c.addOnBinderForNamespaces ns = some f) : startBody c ns true = [.addOn f ns] := by
  unfold startBody
  rw [h, h']
  simp [codeText]

theorem startBody_none {c : Config} {ns : Str} {first : Bool} (h : c.binderForNamespaces ns = none)
    (h' : c.addOnBinderForNamespaces ns = none) : startBody c ns first = [] := by
  unfold startBody
  rw [h, h']

theorem genStep_skip {c : Config} {o : Opts} {bs : List SortItem} {s : GenState} {b : SortItem}
    (hb : bs[s.i]? = some b) (hc : b.code = []) : genStep c o bs s = .inl { s with i := uintInc s.i } := by
  simp [genStep, hb, hc]

theorem genStep_end {c : Config} {o : Opts} {bs : List SortItem} {s : GenState}
    (hb : bs[s.i]? = none) : genStep c o bs s = .inr s.files := by
  simp [genStep, hb]

theorem genStep_write {c : Config} {o : Opts} {bs : List SortItem} {s s' : GenState} {b : SortItem}
    (hn : bs.length + 1 < 2 ^ 32) (hb : bs[s.i]? = some b) (hc : b.code ≠ []) (hs : genStep c o bs s = .inl s') :
    ∃ F k, WriteSpec c o bs s s' b F k := by
  have hlt : s.i < bs.length := by
    rw [List.getElem?_eq_some_iff] at hb; exact hb.1
  have hce : b.code.isEmpty = false := by simpa using hc
  rw [genStep, hb] at hs
  simp only [hce, Bool.false_eq_true, if_false] at hs
  injection hs with hs
  obtain ⟨k, hk⟩ := fill_spec o b.decl.ns (c.binderForNamespaces b.decl.ns).isSome (bs.drop s.i)
    ⟨s.i, s.traced, c.namespaceIncludes b.decl.ns, [], startBody c b.decl.ns (s.entrance b.decl.ns == 0)⟩
    (by simp; omega)
  generalize hf : fill o b.decl.ns (c.binderForNamespaces b.decl.ns).isSome (bs.drop s.i)
    ⟨s.i, s.traced, c.namespaceIncludes b.decl.ns, [], startBody c b.decl.ns (s.entrance b.decl.ns == 0)⟩ = f at hs hk
  subst hs
  have hle : s.i + k ≤ bs.length := by have := hk.le; simp at this; omega
  have hhead : (bs.drop s.i)[0]? = some b := by simpa using hb
  refine ⟨_, k, rfl, hle, ?_, rfl, rfl, rfl, rfl, rfl, hk.same, ?_, ?_, ?_, ?_, ?_, ?_, ?_, ?_, ?_⟩
  · simp only [hk.i]
    split
    · left; exact uintInc_dec (by omega)
    · right
      refine ⟨by omega, ?_⟩
      rw [uintInc_of_lt (by omega)]; omega
  · rw [hk.body]; split <;> simp_all
  · exact hk.traced
  · intro u x hu
    have := hk.size u x hu
    split at this <;> simp_all
  · intro h0
    subst h0
    apply Classical.byContradiction
    intro hlt'
    refine hk.stop (by simp; omega) ?_ b hhead rfl
    have hbod := hk.body
    simp [emit] at hbod
    rw [hbod]; omega
  · intro hlt' hsz x hx
    exact hk.stop (by simp; omega) hsz x (by simpa using hx)
  · rw [hk.pre]; simp
  · intro x hx y hy
    rw [hk.body] at hx
    cases hsk : (c.binderForNamespaces b.decl.ns).isSome with
    | true => rw [hsk] at hx; exact absurd hx (startBody_no_code x)
    | false =>
      rw [hsk] at hx
      simp only [Bool.false_eq_true, if_false, List.mem_append] at hx
      rcases hx with hx | hx
      · exact absurd hx (startBody_no_code x)
      · obtain ⟨h1, h2⟩ := code_mem_emit hx
        exact hk.incl x h1 hsk h2 y hy
  · exact hk.inclKeep
  · intro n id hx
    rw [hk.body] at hx
    cases hsk : (c.binderForNamespaces b.decl.ns).isSome with
    | true => rw [hsk] at hx; exact absurd hx (startBody_no_trace n id)
    | false =>
      rw [hsk] at hx
      simp only [Bool.false_eq_true, if_false, List.mem_append] at hx
      rcases hx with hx | hx
      · exact absurd hx (startBody_no_trace n id)
      · have ht : o.trace = true ∧ 0 < k := by
          cases k with
          | zero => simp [emit] at hx
          | succ k =>
            refine ⟨?_, by omega⟩
            clear hk hle
            generalize (bs.drop s.i).take (k+1) = l at hx
            generalize s.traced = t at hx
            induction l generalizing t with
            | nil => simp [emit] at hx
            | cons z zs ih =>
              simp only [emit, entry, List.mem_append] at hx
              rcases hx with (hx | hx) | hx
              · split at hx
                · assumption
                · simp at hx
              · split at hx <;> simp at hx
              · exact ih _ hx
        exact hk.inclTrace hsk ht.1 ht.2

/-- Induction principle for the outer loop: an invariant on `(i, state)` that survives skipping an unbound declaration and writing a
file holds at the end. -/
theorem gen_induct {c : Config} {o : Opts} {bs : List SortItem} (hn : bs.length + 1 < 2 ^ 32) (P : GenState → Prop)
    (h0 : P GenState.init)
    (hskip : ∀ s b, P s → bs[s.i]? = some b → b.code = [] → P { s with i := s.i + 1 })
    (hwrite : ∀ s s' b F k, P s → bs[s.i]? = some b → b.code ≠ [] → WriteSpec c o bs s s' b F k → P s')
    {files : List OutFile} (hr : Loop.Returns (genStep c o bs) GenState.init files) :
    ∃ s, P s ∧ bs.length ≤ s.i ∧ s.files = files := by
  refine Loop.returns_induct P (fun files => ∃ s, P s ∧ bs.length ≤ s.i ∧ s.files = files) ?_ ?_ h0 hr
  · intro s s' hP hs
    cases hb : bs[s.i]? with
    | none => rw [genStep_end hb] at hs; cases hs
    | some b =>
      by_cases hc : b.code = []
      · rw [genStep_skip hb hc] at hs
        injection hs with hs
        subst hs
        have hlt : s.i < bs.length := by rw [List.getElem?_eq_some_iff] at hb; exact hb.1
        rw [uintInc_of_lt (by omega)]
        exact hskip s b hP hb hc
      · obtain ⟨F, k, hw⟩ := genStep_write hn hb hc hs
        exact hwrite s s' b F k hP hb hc hw
  · intro s r hP hs
    cases hb : bs[s.i]? with
    | none =>
      rw [genStep_end hb] at hs
      injection hs with hs
      refine ⟨s, hP, ?_, hs⟩
      rw [List.getElem?_eq_none_iff] at hb; exact hb
    | some b =>
      by_cases hc : b.code = []
      · rw [genStep_skip hb hc] at hs; cases hs
      · rw [genStep, hb] at hs
        have hce : b.code.isEmpty = false := by simpa using hc
        simp only [hce, Bool.false_eq_true, if_false] at hs
        cases hs

end Binder
