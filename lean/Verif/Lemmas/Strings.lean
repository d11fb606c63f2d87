import Verif.Lemmas.Replace

/-! Lemmas about `split`, `indent`, `trim`, namespaces, and `docString`. -/

namespace Binder

open Spec

theorem compareAt_zero (s t : Str) : Str.compareAt s 0 t.length t = t.isPrefixOf s := by
  rw [Bool.eq_iff_iff, List.isPrefixOf_iff_prefix]
  simp only [Str.compareAt, List.drop_zero, beq_iff_eq]
  constructor
  · intro h; rw [List.prefix_iff_eq_take]; exact h.symm
  · rintro ⟨r, rfl⟩; simp

theorem beginsWith_iff (s p : Str) : beginsWith s p = true ↔ p <+: s := by
  unfold beginsWith; rw [compareAt_zero, List.isPrefixOf_iff_prefix]

/-! ## split -/

theorem splitGo_append (sep s line : Str) (lines : List Str) :
    splitGo sep s line lines = lines ++ splitGo sep s line [] := by
  induction s generalizing line lines with
  | nil => simp only [splitGo]; split <;> simp
  | cons c cs ih =>
    simp only [splitGo]
    split
    · exact ih _ _
    · rw [ih [] (lines ++ [line]), ih [] ([] ++ [line])]; simp

theorem splitGo_single_cons (c d : Char) (cs line : Str) :
    splitGo [c] (d :: cs) line [] = if d = c then line :: splitGo [c] cs [] [] else splitGo [c] cs (line ++ [d]) [] := by
  simp only [splitGo]
  have : Str.compareAt (d :: cs) 0 [c].length [c] = decide (d = c) := by
    simp [Str.compareAt, List.take]
    by_cases h : d = c <;> simp [h]
  rw [this]
  by_cases h : d = c
  · simp only [h, decide_true, Bool.not_true, if_true]
    simp only [Bool.false_eq_true, if_false, List.nil_append]
    rw [splitGo_append]; simp
  · simp [h]

theorem splitGo_notMem (c : Char) (s line : Str) (hl : c ∉ line) : ∀ l ∈ splitGo [c] s line [], c ∉ l := by
  induction s generalizing line with
  | nil => simp only [splitGo]; split <;> simp_all
  | cons d ds ih =>
    rw [splitGo_single_cons]
    split
    · intro l hm
      simp only [List.mem_cons] at hm
      rcases hm with rfl | hm
      · exact hl
      · exact ih [] (by simp) l hm
    · rename_i hd
      apply ih
      simp only [List.mem_append, List.mem_singleton, not_or]
      exact ⟨hl, fun e => hd e.symm⟩

theorem terminated_splitGo (c : Char) (s line : Str) :
    terminated c (splitGo [c] s line []) =
      if line ++ s = [] ∨ s.getLast? = some c then line ++ s else line ++ s ++ [c] := by
  induction s generalizing line with
  | nil =>
    simp only [splitGo]
    by_cases h : line = []
    · simp [h, terminated]
    · have : line.length ≠ 0 := by simpa using h
      simp [h, terminated]
  | cons d ds ih =>
    rw [splitGo_single_cons]
    by_cases h : d = c
    · subst h
      simp only [if_true, terminated, ih]
      cases ds with
      | nil => simp
      | cons e es =>
        simp only [List.nil_append, List.getLast?_cons_cons]
        simp
        split <;> simp
    · rw [if_neg h, ih]
      cases ds with
      | nil => simp [h]
      | cons e es => simp

theorem terminated_append (c : Char) (a b : List Str) : terminated c (a ++ b) = terminated c a ++ terminated c b := by
  induction a with
  | nil => simp [terminated]
  | cons x xs ih => simp [terminated, ih]

theorem splitGo_terminated_aux (c : Char) (l line rest : Str) (hl : c ∉ l) :
    splitGo [c] (l ++ c :: rest) line [] = (line ++ l) :: splitGo [c] rest [] [] := by
  induction l generalizing line with
  | nil => rw [List.nil_append, splitGo_single_cons]; simp
  | cons d ds ih =>
    simp only [List.mem_cons, not_or] at hl
    rw [List.cons_append, splitGo_single_cons, if_neg (fun e => hl.1 e.symm), ih _ hl.2]
    simp

theorem splitGo_terminated (c : Char) (ls : List Str) (h : ∀ l ∈ ls, c ∉ l) :
    splitGo [c] (terminated c ls) [] [] = ls := by
  induction ls with
  | nil => simp [terminated, splitGo]
  | cons l ls ih =>
    simp only [terminated]
    rw [splitGo_terminated_aux c l [] _ (h l (by simp)), ih (fun x hx => h x (by simp [hx]))]
    simp

theorem isLines_split (c : Char) (b : Str) : IsLines c b (split b [c]) := by
  refine ⟨splitGo_notMem c b [] (by simp), ?_⟩
  have := terminated_splitGo c b []
  simpa [split] using this

theorem terminated_injective (c : Char) {a b : List Str} (ha : ∀ l ∈ a, c ∉ l) (hb : ∀ l ∈ b, c ∉ l)
    (h : terminated c a = terminated c b) : a = b := by
  rw [← splitGo_terminated c a ha, ← splitGo_terminated c b hb, h]

theorem isLines_unique {c : Char} {b : Str} {ls ls' : List Str} (h : IsLines c b ls) (h' : IsLines c b ls') : ls = ls' :=
  terminated_injective c h.1 h'.1 (h.2.trans h'.2.symm)

/-! ## indent -/

theorem indent_eq_terminated (code ind : Str) :
    indent code ind = terminated '\n' ((split code c!"\n").map fun l => if l = [] then [] else ind ++ l) := by
  unfold indent
  have : ∀ (ls : List Str) (acc : Str),
      ls.foldl (fun r l => r ++ (if l.length != 0 then ind ++ l ++ c!"\n" else l ++ c!"\n")) acc
        = acc ++ terminated '\n' (ls.map fun l => if l = [] then [] else ind ++ l) := by
    intro ls
    induction ls with
    | nil => intro acc; simp [terminated]
    | cons l ls ih =>
      intro acc
      rw [List.foldl_cons, ih]
      by_cases hl : l = [] <;> simp [hl, terminated]
  simpa using this (split code c!"\n") []

/-! ## trim -/

theorem isBlank_iff (c : Char) : isBlank c = true ↔ Blank c := by simp [isBlank, Blank]

theorem findFirstNotBlank_none {s : Str} (h : findFirstNotBlank s = none) : ∀ c ∈ s, isBlank c = true := by
  induction s with
  | nil => simp
  | cons d ds ih =>
    simp only [findFirstNotBlank] at h
    split at h
    · rename_i hb
      simp only [Option.map_eq_none_iff] at h
      intro c hc; simp only [List.mem_cons] at hc
      rcases hc with rfl | hc
      · exact hb
      · exact ih h c hc
    · simp at h

theorem findFirstNotBlank_some {s : Str} {b : Nat} (h : findFirstNotBlank s = some b) :
    ∃ pre c post, s = pre ++ c :: post ∧ pre.length = b ∧ (∀ x ∈ pre, isBlank x = true) ∧ isBlank c = false := by
  induction s generalizing b with
  | nil => simp [findFirstNotBlank] at h
  | cons d ds ih =>
    simp only [findFirstNotBlank] at h
    split at h
    · rename_i hb
      simp only [Option.map_eq_some_iff] at h
      obtain ⟨k, hk, rfl⟩ := h
      obtain ⟨pre, c, post, h1, h2, h3, h4⟩ := ih hk
      refine ⟨d :: pre, c, post, by simp [h1], by simp [h2], ?_, h4⟩
      intro x hx; simp only [List.mem_cons] at hx
      rcases hx with rfl | hx
      · exact hb
      · exact h3 x hx
    · rename_i hb
      simp at h; subst h
      exact ⟨[], d, ds, by simp, rfl, by simp, by simpa using hb⟩

theorem findLastNotBlank_none {s : Str} (h : findLastNotBlank s = none) : ∀ c ∈ s, isBlank c = true := by
  induction s with
  | nil => simp
  | cons d ds ih =>
    simp only [findLastNotBlank] at h
    split at h
    · simp at h
    · rename_i hn
      split at h
      · rename_i hb
        intro c hc; simp only [List.mem_cons] at hc
        rcases hc with rfl | hc
        · exact hb
        · exact ih hn c hc
      · simp at h

theorem findLastNotBlank_some {s : Str} {e : Nat} (h : findLastNotBlank s = some e) :
    ∃ pre c post, s = pre ++ c :: post ∧ pre.length = e ∧ (∀ x ∈ post, isBlank x = true) ∧ isBlank c = false := by
  induction s generalizing e with
  | nil => simp [findLastNotBlank] at h
  | cons d ds ih =>
    simp only [findLastNotBlank] at h
    split at h
    · rename_i k hk
      simp at h; subst h
      obtain ⟨pre, c, post, h1, h2, h3, h4⟩ := ih hk
      exact ⟨d :: pre, c, post, by simp [h1], by simp [h2], h3, h4⟩
    · rename_i hn
      split at h
      · simp at h
      · rename_i hb
        simp at h; subst h
        exact ⟨[], d, ds, by simp, rfl, findLastNotBlank_none hn, by simpa using hb⟩

theorem isTrimmed_trim (s : Str) : IsTrimmed s (trim s) := by
  unfold trim
  split
  · rename_i hn
    refine ⟨⟨s, [], by simp, fun c hc => (isBlank_iff c).mp (findFirstNotBlank_none hn c hc), by simp⟩, by simp, by simp⟩
  · rename_i b hb
    obtain ⟨pre, c, post, h1, h2, h3, h4⟩ := findFirstNotBlank_some hb
    split
    · rename_i e he
      obtain ⟨pre', c', post', h1', h2', h3', h4'⟩ := findLastNotBlank_some he
      -- the first non-blank is not after the last one
      have hle : b ≤ e := by
        rcases Nat.lt_or_ge e b with hlt | hge
        · exfalso
          have hc' : c' ∈ pre := by
            have : s[e]? = some c' := by rw [h1', ← h2']; simp
            rw [h1, List.getElem?_append_left (by omega)] at this
            exact List.mem_of_getElem? this
          have := h3 c' hc'
          simp [h4'] at this
        · exact hge
      have hsub : s = pre ++ Str.substr s b (e - b + 1) ++ post' := by
        unfold Str.substr
        have e1 : s.take b = pre := by rw [h1, ← h2]; simp
        have e2 : s.drop (e + 1) = post' := by
          rw [h1', ← h2']; simp
        have : s = s.take b ++ ((s.drop b).take (e - b + 1) ++ (s.drop b).drop (e - b + 1)) := by
          rw [List.take_append_drop, List.take_append_drop]
        rw [e1] at this
        rw [List.drop_drop, show b + (e - b + 1) = e + 1 by omega, e2] at this
        simpa using this
      have hhead : (Str.substr s b (e - b + 1)).head? = some c := by
        unfold Str.substr
        rw [h1, ← h2]; simp
      have hlast : (Str.substr s b (e - b + 1)).getLast? = some c' := by
        have hlen : e < s.length := by rw [h1', ← h2']; simp
        have hl : ((s.drop b).take (e - b + 1)).length = e - b + 1 := by simp; omega
        unfold Str.substr
        rw [List.getLast?_eq_getElem?, hl, List.getElem?_take]
        simp only [Nat.add_sub_cancel, show e - b < e - b + 1 by omega, if_true, List.getElem?_drop]
        rw [show b + (e - b) = e by omega, h1', ← h2']; simp
      refine ⟨⟨pre, post', hsub, fun x hx => (isBlank_iff x).mp (h3 x hx), fun x hx => (isBlank_iff x).mp (h3' x hx)⟩, ?_, ?_⟩
      · intro x hx; rw [hhead] at hx; cases hx
        intro hb'; rw [← isBlank_iff] at hb'; simp [h4] at hb'
      · intro x hx; rw [hlast] at hx; cases hx
        intro hb'; rw [← isBlank_iff] at hb'; simp [h4'] at hb'
    · rename_i hn
      exfalso
      have : isBlank c = true := findLastNotBlank_none hn c (by rw [h1]; simp)
      simp [h4] at this

theorem isTrimmed_unique {s t t' : Str} (h : IsTrimmed s t) (h' : IsTrimmed s t') : t = t' := by
  obtain ⟨⟨pre, post, h1, h2, h3⟩, h4, h5⟩ := h
  obtain ⟨⟨pre', post', h1', h2', h3'⟩, h4', h5'⟩ := h'
  have key : ∀ {p1 p2 t1 t2 : Str}, p1 ++ t1 = p2 ++ t2 → (∀ c ∈ p1, Blank c) → (∀ c ∈ p2, Blank c) →
      (∀ c, t1.head? = some c → ¬ Blank c) → (∀ c, t2.head? = some c → ¬ Blank c) → t1 ≠ [] → t2 ≠ [] → p1 = p2 ∧ t1 = t2 := by
    intro p1
    induction p1 with
    | nil =>
      intro p2 t1 t2 e hp1 hp2 ht1 ht2 hn1 hn2
      cases p2 with
      | nil => exact ⟨rfl, by simpa using e⟩
      | cons x xs =>
        exfalso
        simp only [List.nil_append, List.cons_append] at e
        exact ht1 x (by simp [e]) (hp2 x (by simp))
    | cons y ys ih =>
      intro p2 t1 t2 e hp1 hp2 ht1 ht2 hn1 hn2
      cases p2 with
      | nil =>
        exfalso
        simp only [List.nil_append, List.cons_append] at e
        exact ht2 y (by simp [← e]) (hp1 y (by simp))
      | cons x xs =>
        simp only [List.cons_append, List.cons.injEq] at e
        obtain ⟨e1, e2⟩ := ih e.2 (fun c hc => hp1 c (by simp [hc])) (fun c hc => hp2 c (by simp [hc])) ht1 ht2 hn1 hn2
        exact ⟨by rw [e.1, e1], e2⟩
  have allBlank : ∀ {t : Str} {pre post : Str}, (∀ c, t.head? = some c → ¬ Blank c) → (∀ c ∈ pre ++ t ++ post, Blank c) → t = [] := by
    intro t pre post ht hall
    cases t with
    | nil => rfl
    | cons x xs => exact absurd (hall x (by simp)) (ht x (by simp))
  by_cases ht : t = []
  · subst ht
    symm
    apply allBlank h4'
    rw [← h1', h1]
    intro c hc
    simp only [List.append_nil, List.mem_append] at hc
    rcases hc with hc | hc
    · exact h2 c hc
    · exact h3 c hc
  · by_cases ht' : t' = []
    · subst ht'
      apply allBlank h4
      rw [← h1, h1']
      intro c hc
      simp only [List.append_nil, List.mem_append] at hc
      rcases hc with hc | hc
      · exact h2' c hc
      · exact h3' c hc
    · have e : pre ++ (t ++ post) = pre' ++ (t' ++ post') := by
        rw [← List.append_assoc, ← List.append_assoc, ← h1, ← h1']
      have hh : ∀ {a b : Str}, a ≠ [] → (a ++ b).head? = a.head? := by
        intro a b ha; cases a with
        | nil => exact absurd rfl ha
        | cons _ _ => simp
      obtain ⟨_, e2⟩ := key e h2 h2' (by rw [hh ht]; exact h4) (by rw [hh ht']; exact h4') (by simp [ht]) (by simp [ht'])
      have e3 : post.reverse ++ t.reverse = post'.reverse ++ t'.reverse := by
        rw [← List.reverse_append, ← List.reverse_append, e2]
      obtain ⟨_, e4⟩ := key e3 (by simpa using h3) (by simpa using h3') (by simpa using h5) (by simpa using h5')
        (by simpa using ht) (by simpa using ht')
      simpa using e4

/-! ## Namespaces -/

theorem colons_infix_of_rfind {ns : Str} {i : Nat} (h : Str.rfind c!"::" ns = some i) :
    ns = ns.take i ++ c!"::" ++ ns.drop (i + 2) ∧ i + 2 ≤ ns.length := by
  obtain ⟨⟨r, h1⟩, h2, _⟩ := Str.rfind_some h
  have : ns.drop (i + 2) = r := by rw [← List.drop_drop, ← h1]; simp
  constructor
  · rw [this, List.append_assoc, h1, List.take_append_drop]
  · have := congrArg List.length h1
    simp at this; omega

theorem baseNamespace_length (ns : Str) (h : ns ≠ []) : (baseNamespace ns).length < ns.length := by
  unfold baseNamespace
  split
  · simpa using length_pos_of_ne h
  · rename_i f hf
    have := (colons_infix_of_rfind hf).2
    simp [Str.substr]; omega

end Binder
