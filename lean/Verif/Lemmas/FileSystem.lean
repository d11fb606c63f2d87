import Verif.Lemmas.GenProps

/-!
# `update_source_file` and file names
-/

namespace Binder

open Spec

/-! ## `update_source_file` -/

/-- A path is not both a file and a directory. -/
def FS.WF (fs : FS) : Prop := ∀ p, fs.dirs p = true → fs.files p = none

theorem mkdirP_some {fs fs' : FS} {path : Str} (h : mkdirP fs path = some fs') :
    fs'.files = fs.files ∧ fs'.writes = fs.writes ∧ (∀ d, fs'.dirs d = true ↔ fs.dirs d = true ∨ d ∈ dirChain path) ∧
    (∀ d ∈ dirChain path, fs.files d = none) ∧ path ≠ [] := by
  unfold mkdirP at h
  split at h
  · cases h
  · rename_i hn
    injection h with h
    subst h
    simp only [Bool.or_eq_true, not_or, List.isEmpty_iff] at hn
    refine ⟨rfl, rfl, by simp, ?_, hn.1⟩
    intro d hd
    cases hf : fs.files d with
    | none => rfl
    | some x => exact absurd (List.any_eq_true.2 ⟨d, hd, by simp [hf]⟩) hn.2

theorem mkdirP_ok {fs : FS} {path : Str} (hp : path ≠ []) (h : ∀ d ∈ dirChain path, fs.files d = none) : ∃ fs', mkdirP fs path = some fs' := by
  unfold mkdirP
  rw [if_neg]
  · exact ⟨_, rfl⟩
  · intro hc
    rw [Bool.or_eq_true, List.isEmpty_iff] at hc
    rcases hc with hc | hc
    · exact hp hc
    obtain ⟨d, hd, hs⟩ := List.any_eq_true.1 hc
    rw [h d hd] at hs; simp at hs

/-- What one successful call does. -/
structure Updated (fs fs' : FS) (pre name code : Str) : Prop where
  content : code ≠ [] → fs'.files (pre ++ c!"/" ++ name) = some code
  frame : ∀ x, x ≠ pre ++ c!"/" ++ name → fs'.files x = fs.files x
  dirs : ∀ d, fs'.dirs d = true ↔ fs.dirs d = true ∨ d ∈ dirChain (sourceDir pre name)
  clear : ∀ d ∈ dirChain (sourceDir pre name), fs.files d = none
  path : sourceDir pre name ≠ []
  writes : fs'.writes = if (fs.files (pre ++ c!"/" ++ name)).getD [] = code then fs.writes else fs.writes ++ [pre ++ c!"/" ++ name]
  same : (fs.files (pre ++ c!"/" ++ name)).getD [] = code → fs'.files = fs.files
  notDir : (fs.files (pre ++ c!"/" ++ name)).getD [] ≠ code → fs'.dirs (pre ++ c!"/" ++ name) = false

theorem updateSourceFile_some {fs fs' : FS} {pre name code : Str} (h : updateSourceFile fs pre name code = some fs') :
    Updated fs fs' pre name code := by
  unfold updateSourceFile at h
  split at h
  · cases h
  · rename_i fs1 hm
    obtain ⟨h1, h2, h3, h4, h5⟩ := mkdirP_some hm
    simp only at h
    rw [h1] at h
    split at h
    · rename_i hne
      have hne : (fs.files (pre ++ c!"/" ++ name)).getD [] ≠ code := by simpa using hne
      unfold writeFile at h
      split at h
      · cases h
      · rename_i hd
        injection h with h
        subst h
        refine ⟨by simp, ?_, h3, h4, h5, ?_, fun h => absurd h hne, fun _ => ?_⟩
        · intro x hx; simp only; rw [if_neg hx, h1]
        · simp only; rw [if_neg hne, h2]
        · simp only [Bool.or_eq_true, not_or, Bool.not_eq_true] at hd; exact hd.1
    · rename_i hne
      have hne : (fs.files (pre ++ c!"/" ++ name)).getD [] = code := by simpa using hne
      injection h with h
      subst h
      refine ⟨?_, fun x _ => by rw [h1], h3, h4, h5, by rw [if_pos hne, h2], fun _ => h1, fun h => absurd hne h⟩
      intro hc
      rw [h1]
      cases hf : fs.files (pre ++ c!"/" ++ name) with
      | none => rw [hf] at hne; exact absurd hne.symm hc
      | some x => rw [hf] at hne; simp at hne; rw [hne]

theorem Updated.wf {fs fs' : FS} {pre name code : Str} (h : Updated fs fs' pre name code) (hw : fs.WF) : fs'.WF := by
  intro p hp
  by_cases hc : (fs.files (pre ++ c!"/" ++ name)).getD [] = code
  · rw [h.same hc]
    rcases (h.dirs p).1 hp with hp | hp
    · exact hw p hp
    · exact h.clear p hp
  · have hne : p ≠ pre ++ c!"/" ++ name := by
      rintro rfl; rw [h.notDir hc] at hp; cases hp
    rw [h.frame p hne]
    rcases (h.dirs p).1 hp with hp | hp
    · exact hw p hp
    · exact h.clear p hp

theorem update_again {fs : FS} {pre name code : Str} (hp : sourceDir pre name ≠ []) (hcl : ∀ d ∈ dirChain (sourceDir pre name), fs.files d = none)
    (hc : fs.files (pre ++ c!"/" ++ name) = some code) :
    ∃ fs', updateSourceFile fs pre name code = some fs' ∧ fs'.files = fs.files ∧ fs'.writes = fs.writes := by
  obtain ⟨fs1, hm⟩ := mkdirP_ok hp hcl
  obtain ⟨h1, h2, _, _, _⟩ := mkdirP_some hm
  refine ⟨fs1, ?_, h1, h2⟩
  unfold updateSourceFile
  rw [hm]
  simp only [h1, hc, Option.getD_some, bne_self_eq_false, Bool.false_eq_true, if_false]

theorem dropWhile_until {x : Char} {u v : Str} (h : x ∉ u) : (u ++ x :: v).dropWhile (· != x) = x :: v := by
  induction u with
  | nil => simp
  | cons y ys ih =>
    have hy : y ≠ x := fun e => h (by simp [e])
    rw [List.cons_append, List.dropWhile_cons, if_pos (by simpa using hy), ih (fun hm => h (by simp [hm]))]

theorem parentDir_base {d b : Str} (h : '/' ∉ b) : parentDir (d ++ c!"/" ++ b) = d := by
  unfold parentDir
  rw [List.reverse_append, List.reverse_append, List.reverse_singleton, List.singleton_append, dropWhile_until (by simpa using h),
    List.tail_cons, List.reverse_reverse]

theorem dropWhile_append_not {x : Char} {u v : Str} (h : x ∉ u) : (u ++ v).dropWhile (· != x) = v.dropWhile (· != x) := by
  induction u with
  | nil => rfl
  | cons y ys ih =>
    have hy : y ≠ x := fun e => h (by simp [e])
    rw [List.cons_append, List.dropWhile_cons, if_pos (by simpa using hy), ih (fun hm => h (by simp [hm]))]

theorem parentDir_ext {p ext : Str} (h : '/' ∉ ext) : parentDir (p ++ ext) = parentDir p := by
  unfold parentDir
  rw [List.reverse_append, dropWhile_append_not (by simpa using h)]

/-- After a successful sequence of updates. -/
theorem updateAll_some {pre : Str} {fs fs' : FS} {l : List (Str × Str)} (hw : fs.WF) (hne : ∀ p ∈ l, p.2 ≠ [])
    (hnd : (l.map (·.1)).Nodup) (h : updateAll pre fs l = some fs') :
    fs'.WF ∧ (∀ p ∈ l, fs'.files (pre ++ c!"/" ++ p.1) = some p.2 ∧ sourceDir pre p.1 ≠ [] ∧ ∀ d ∈ dirChain (sourceDir pre p.1), fs'.dirs d = true) ∧
    (∀ x, (∀ p ∈ l, x ≠ pre ++ c!"/" ++ p.1) → fs'.files x = fs.files x) ∧ (∀ d, fs.dirs d = true → fs'.dirs d = true) := by
  induction l generalizing fs with
  | nil =>
    simp only [updateAll, Option.some.injEq] at h; subst h
    exact ⟨hw, by simp, by simp, fun d h => h⟩
  | cons p l ih =>
    obtain ⟨name, code⟩ := p
    simp only [updateAll] at h
    split at h
    · cases h
    · rename_i fs1 hu
      have hU := updateSourceFile_some hu
      rw [List.map_cons, List.nodup_cons] at hnd
      obtain ⟨i1, i2, i3, i4⟩ := ih (hU.wf hw) (fun p hp => hne p (by simp [hp])) hnd.2 h
      refine ⟨i1, ?_, ?_, ?_⟩
      · intro p hp
        rcases List.mem_cons.1 hp with rfl | hp
        · refine ⟨?_, hU.path, fun d hd => i4 d ((hU.dirs d).2 (.inr hd))⟩
          rw [i3]
          · exact hU.content (hne (name, code) (by simp))
          · intro q hq he
            refine hnd.1 (List.mem_map.2 ⟨q, hq, ?_⟩)
            simpa using he.symm
        · exact i2 p hp
      · intro x hx
        rw [i3 x (fun q hq => hx q (by simp [hq])), hU.frame x (hx (name, code) (by simp))]
      · intro d hd; exact i4 d ((hU.dirs d).2 (.inl hd))

theorem updateAll_again {pre : Str} {fs : FS} {l : List (Str × Str)}
    (h : ∀ p ∈ l, fs.files (pre ++ c!"/" ++ p.1) = some p.2 ∧ sourceDir pre p.1 ≠ [] ∧ ∀ d ∈ dirChain (sourceDir pre p.1), fs.files d = none) :
    ∃ fs', updateAll pre fs l = some fs' ∧ fs'.files = fs.files ∧ fs'.writes = fs.writes := by
  induction l generalizing fs with
  | nil => exact ⟨fs, rfl, rfl, rfl⟩
  | cons p l ih =>
    obtain ⟨name, code⟩ := p
    obtain ⟨h1, hp, h2⟩ := h (name, code) (by simp)
    obtain ⟨fs1, hu, e1, e2⟩ := update_again hp h2 h1
    obtain ⟨fs2, hu2, e3, e4⟩ := ih (fs := fs1) (by
      intro q hq; rw [e1]; exact h q (by simp [hq]))
    refine ⟨fs2, ?_, e3.trans e1, e4.trans e2⟩
    simp only [updateAll, hu, hu2]

/-! ## Characters of file names -/

/-- Letters, digits, `_`, `/`, `<`, `>`. -/
def safeChar (x : Char) : Bool := isAlnum x || x == '_' || x == '/' || x == '<' || x == '>'

theorem mem_replaceAll {x : Char} {s frm to : Str} (h : x ∈ replaceAll s frm to) : x ∈ s ∨ x ∈ to := mem_replaceGo h

theorem fileNamePrefix_safe {incl ns : Str} {x : Char} (h : x ∈ fileNamePrefix incl ns) : safeChar x = true := by
  have hkept : ∀ y, keptInFileName y = true → y ≠ '.' → safeChar y = true := by
    intro y hy hd
    unfold keptInFileName at hy
    unfold safeChar
    simp at hy ⊢
    rcases hy with h | h | h | h | h | h <;> simp_all
  unfold fileNamePrefix at h
  simp only at h
  rw [replaceAll_single] at h
  obtain ⟨y, hy, hx⟩ := List.mem_flatMap.1 h
  split at hx
  · simp at hx; subst hx; decide
  · rename_i hdot
    simp at hx; subst hx
    refine hkept x ?_ hdot
    have hy : x ∈ _ := (mem_replaceAll hy).resolve_right (by simp)
    have hy : x ∈ _ := (mem_replaceAll hy).resolve_right (by simp)
    have hy : x ∈ _ := (mem_replaceAll hy).resolve_right (by simp)
    have hbase : ∀ z ∈ Str.substr (if (incl.filter keptInFileName).length ≤ 2 then c!"<unknown/unknown.hh>" else incl.filter keptInFileName) 1
        ((if (incl.filter keptInFileName).length ≤ 2 then c!"<unknown/unknown.hh>" else incl.filter keptInFileName).length - 2), keptInFileName z = true := by
      intro z hz
      have hz := List.mem_of_mem_drop (List.mem_of_mem_take hz)
      split at hz
      · exact (by decide : ∀ z ∈ c!"<unknown/unknown.hh>", keptInFileName z = true) z hz
      · exact (List.mem_filter.1 hz).2
    generalize Str.substr (if (incl.filter keptInFileName).length ≤ 2 then c!"<unknown/unknown.hh>" else incl.filter keptInFileName) 1
        ((if (incl.filter keptInFileName).length ≤ 2 then c!"<unknown/unknown.hh>" else incl.filter keptInFileName).length - 2) = base at hy hbase
    split at hy
    · rcases List.mem_append.1 hy with hy | hy
      · exact (by decide : ∀ z ∈ c!"std/", keptInFileName z = true) x hy
      · split at hy
        · exact hbase x (List.mem_of_mem_drop hy)
        · exact hbase x hy
    · exact hbase x hy

theorem digit_safe {x : Char} (h : x.isDigit = true) : safeChar x = true := by
  have : isDigit x = true := by
    unfold isDigit
    unfold Char.isDigit at h
    simp only [Bool.and_eq_true, decide_eq_true_eq] at h ⊢
    exact h
  simp [safeChar, isAlnum, this]

theorem fileStem_safe {o : Opts} {np : Str} {n : Nat} (hnp : ∀ x ∈ np, safeChar x = true) :
    ∀ x ∈ fileStem o np n, safeChar x = true := by
  intro x hx
  unfold fileStem at hx
  split at hx
  · rcases List.mem_append.1 hx with hx | hx
    · exact hnp x hx
    · exact digit_safe (natStr_digit hx)
  · rcases List.mem_append.1 hx with hx | hx
    · exact hnp x hx
    · split at hx
      · rcases List.mem_append.1 hx with hx | hx
        · simp at hx; subst hx; decide
        · exact digit_safe (natStr_digit hx)
      · simp at hx

/-! ## Distinct names -/

/-- Splitting at the last occurrence of a separator. -/
theorem split_last_inj {p q u v : Str} {x : Char} (hu : x ∉ u) (hv : x ∉ v) (h : p ++ x :: u = q ++ x :: v) : p = q ∧ u = v := by
  have h' := congrArg List.reverse h
  simp only [List.reverse_append, List.reverse_cons, List.append_assoc, List.singleton_append] at h'
  have key : ∀ (a b c d : Str), x ∉ a → x ∉ b → a ++ x :: c = b ++ x :: d → a = b ∧ c = d := by
    intro a
    induction a with
    | nil =>
      intro b c d _ hb he
      cases b with
      | nil => simpa using he
      | cons y ys => simp at he; exact absurd (by rw [he.1]; simp) hb
    | cons y ys ih =>
      intro b c d ha hb he
      cases b with
      | nil => simp at he; exact absurd (by rw [← he.1]; simp) ha
      | cons z zs =>
        simp at he
        obtain ⟨h1, h2⟩ := ih zs c d (fun h => ha (by simp [h])) (fun h => hb (by simp [h])) he.2
        exact ⟨by rw [he.1, h1], h2⟩
  obtain ⟨h1, h2⟩ := key _ _ _ _ (by simpa using hu) (by simpa using hv) h'
  exact ⟨List.reverse_inj.1 h2, List.reverse_inj.1 h1⟩

theorem natStr_no_underscore (n : Nat) : '_' ∉ natStr n := by
  intro h; have := natStr_digit h; revert this; decide

theorem replace_slash_append (a b : Str) : replaceAll (a ++ b) c!"/" c!"_" = replaceAll a c!"/" c!"_" ++ replaceAll b c!"/" c!"_" := by
  rw [replaceAll_single, replaceAll_single, replaceAll_single, List.flatMap_append]

theorem replace_slash_natStr (n : Nat) : replaceAll (natStr n) c!"/" c!"_" = natStr n := by
  rw [replaceAll_single]
  have : ∀ s : Str, '/' ∉ s → s.flatMap (fun d => if d = '/' then c!"_" else [d]) = s := by
    intro s hs
    induction s with
    | nil => rfl
    | cons x xs ih =>
      rw [List.flatMap_cons, ih (fun h => hs (by simp [h])), if_neg (fun h => hs (by simp [h]))]
      rfl
  exact this _ (fun h => by have := natStr_digit h; revert this; decide)

theorem stem_rep (o : Opts) (np : Str) (n : Nat) :
    replaceAll (fileStem o np n) c!"/" c!"_" = fileStem o (replaceAll np c!"/" c!"_") n := by
  unfold fileStem
  split
  · rw [replace_slash_append, replace_slash_natStr]
  · rw [replace_slash_append]
    split
    · rw [replace_slash_append, replace_slash_natStr]
      congr 2
    · rw [replaceAll_single, replaceAll_single]; rfl

/-- Stems built from keys that are never `other key + "_" + number` are distinct. -/
theorem stem_inj {o : Opts} (hflat : o.flat = false) {a b : Str} {n m : Nat} (h1 : ∀ k, 0 < k → a ≠ b ++ c!"_" ++ natStr k)
    (h2 : ∀ k, 0 < k → b ≠ a ++ c!"_" ++ natStr k) (h : fileStem o a n = fileStem o b m) : a = b ∧ n = m := by
  unfold fileStem at h
  rw [hflat] at h
  simp only [Bool.false_eq_true, if_false] at h
  cases n with
  | zero =>
    cases m with
    | zero => simp at h; exact ⟨h, rfl⟩
    | succ m =>
      simp only [bne_self_eq_false, Bool.false_eq_true, if_false, List.append_nil] at h
      exact absurd (by simpa using h) (h1 (m + 1) (by omega))
  | succ n =>
    cases m with
    | zero =>
      simp only [bne_self_eq_false, Bool.false_eq_true, if_false, List.append_nil] at h
      exact absurd (by simpa using h.symm) (h2 (n + 1) (by omega))
    | succ m =>
      have h : a ++ '_' :: natStr (n + 1) = b ++ '_' :: natStr (m + 1) := by simpa using h
      obtain ⟨e1, e2⟩ := split_last_inj (natStr_no_underscore _) (natStr_no_underscore _) h
      exact ⟨e1, natStr_injective e2⟩

theorem stem_inj_flat {o : Opts} (hflat : o.flat = true) {a : Str} {n m : Nat} (h : fileStem o a n = fileStem o a m) : n = m := by
  unfold fileStem at h
  rw [hflat] at h
  simp only [if_true] at h
  exact natStr_injective (List.append_cancel_left h)

theorem nodup_map_on {α β : Type} {f : α → β} {l : List α} (hl : l.Nodup) (hf : ∀ a ∈ l, ∀ b ∈ l, f a = f b → a = b) :
    (l.map f).Nodup := by
  induction l with
  | nil => simp
  | cons x xs ih =>
    rw [List.nodup_cons] at hl
    rw [List.map_cons, List.nodup_cons]
    refine ⟨?_, ih hl.2 (fun a ha b hb => hf a (by simp [ha]) b (by simp [hb]))⟩
    intro hm
    obtain ⟨y, hy, he⟩ := List.mem_map.1 hm
    have := hf y (by simp [hy]) x (by simp) he
    subst this
    exact hl.1 hy

end Binder
