import Verif.Lemmas.Generate
import Verif.Spec.Generate

/-!
# Namespaces of the generated module
-/

namespace Binder

open Spec

theorem base_last_cases (ns : Str) :
    (baseNamespace ns = [] ∧ lastNamespace ns = ns) ∨ ns = baseNamespace ns ++ c!"::" ++ lastNamespace ns := by
  cases hf : Str.rfind c!"::" ns with
  | none => left; simp [baseNamespace, lastNamespace, hf]
  | some f =>
    right
    obtain ⟨h1, h2⟩ := colons_infix_of_rfind hf
    have hl : lastNamespace ns = ns.drop (f + 2) := by
      unfold lastNamespace; rw [hf]; simp only [Str.substr]
      rw [List.take_of_length_le]; simp; omega
    have hb : baseNamespace ns = ns.take f := by
      unfold baseNamespace; rw [hf]; simp [Str.substr]
    rw [hl, hb]; exact h1

theorem base_prefix (ns : Str) : baseNamespace ns <+: ns := by
  rcases base_last_cases ns with h | h
  · rw [h.1]; exact List.nil_prefix
  · exact ⟨c!"::" ++ lastNamespace ns, by rw [← List.append_assoc]; exact h.symm⟩

theorem strLt_of_prefix {a b : Str} (h : a <+: b) (hl : a.length < b.length) : a < b := by
  induction a generalizing b with
  | nil =>
    cases b with
    | nil => simp at hl
    | cons x xs => exact List.nil_lt_cons x xs
  | cons y ys ih =>
    cases b with
    | nil => simp at hl
    | cons x xs =>
      rw [List.cons_prefix_cons] at h
      rw [List.cons_lt_cons_iff]
      exact .inr ⟨h.1, ih h.2 (by simpa using hl)⟩

theorem base_lt {ns : Str} (h : ns ≠ []) : baseNamespace ns < ns := strLt_of_prefix (base_prefix ns) (baseNamespace_length ns h)

/-! ## `ancestors` -/

theorem self_mem_ancestors {n : Nat} {ns : Str} (hn : ns.length ≤ n) (h : ns ≠ []) : ns ∈ ancestors n ns := by
  cases n with
  | zero => exact absurd (List.length_eq_zero_iff.1 (by omega)) h
  | succ n =>
    rw [ancestors, if_pos (by simpa using h)]
    simp

theorem ancestors_ne {n : Nat} {ns m : Str} (h : m ∈ ancestors n ns) : m ≠ [] := by
  induction n generalizing ns with
  | zero => simp [ancestors] at h
  | succ n ih =>
    rw [ancestors] at h
    split at h
    · rename_i hne
      rcases List.mem_cons.1 h with rfl | h
      · simpa using hne
      · exact ih h
    · simp at h

theorem ancestors_prefix {n : Nat} {ns m : Str} (h : m ∈ ancestors n ns) : m <+: ns := by
  induction n generalizing ns with
  | zero => simp [ancestors] at h
  | succ n ih =>
    rw [ancestors] at h
    split at h
    · rcases List.mem_cons.1 h with rfl | h
      · exact List.prefix_rfl
      · exact (ih h).trans (base_prefix ns)
    · simp at h

theorem ancestors_base {n : Nat} {ns m : Str} (hn : ns.length ≤ n) (h : m ∈ ancestors n ns) :
    baseNamespace m = [] ∨ baseNamespace m ∈ ancestors n ns := by
  induction n generalizing ns with
  | zero => simp [ancestors] at h
  | succ n ih =>
    rw [ancestors] at h ⊢
    split at h
    · rename_i hne
      rw [if_pos hne]
      have hlen := baseNamespace_length ns (by simpa using hne)
      rcases List.mem_cons.1 h with rfl | h
      · by_cases hb : baseNamespace m = []
        · exact .inl hb
        · exact .inr (List.mem_cons_of_mem _ (self_mem_ancestors (by omega) hb))
      · rcases ih (by omega) h with h | h
        · exact .inl h
        · exact .inr (List.mem_cons_of_mem _ h)
    · simp at h

theorem mem_allNested {bs : List SortItem} {n : Str} :
    n ∈ allNestedNamespaces bs ↔ ∃ b ∈ bs, b.code ≠ [] ∧ n ∈ ancestors b.decl.ns.length b.decl.ns := by
  unfold allNestedNamespaces
  rw [mem_setOf, List.mem_flatMap]
  constructor
  · rintro ⟨b, hb, h⟩
    split at h
    · rename_i hc; exact ⟨b, hb, by simpa using hc, h⟩
    · simp at h
  · rintro ⟨b, hb, hc, h⟩
    exact ⟨b, hb, by rw [if_pos (by simpa using hc)]; exact h⟩

/-! ## Creation of the sub-modules -/

theorem createModules_aux (pre rest : List Str) (hs : (pre ++ rest).Pairwise (· < ·))
    (hcl : ∀ n ∈ rest, n ≠ [] ∧ ¬ c!"::" <+: n ∧ (baseNamespace n = [] ∨ baseNamespace n ∈ pre ++ rest)) :
    createModules ([] :: pre) (rest.map fun n => (baseNamespace n, lastNamespace n)) = some ([] :: (pre ++ rest)) := by
  induction rest generalizing pre with
  | nil => simp [createModules]
  | cons n rest ih =>
    obtain ⟨hne, hcol, hb⟩ := hcl n (by simp)
    have hmem : baseNamespace n ∈ ([] :: pre : List Str) := by
      rcases hb with hb | hb
      · rw [hb]; simp
      · have hlt := base_lt hne
        rw [List.pairwise_append] at hs
        rcases List.mem_append.1 hb with hb | hb
        · exact List.mem_cons_of_mem _ hb
        · exfalso
          rcases List.mem_cons.1 hb with hb | hb
          · rw [hb] at hlt; exact strLt_irrefl _ hlt
          · have := (List.pairwise_cons.1 hs.2.1).1 _ hb
            exact strLt_irrefl _ (strLt_trans this hlt)
    have hkey : (if baseNamespace n = [] then lastNamespace n else baseNamespace n ++ c!"::" ++ lastNamespace n) = n := by
      rcases base_last_cases n with h | h
      · rw [if_pos h.1, h.2]
      · by_cases hb0 : baseNamespace n = []
        · exact absurd ⟨lastNamespace n, by rw [hb0] at h; simpa using h.symm⟩ hcol
        · rw [if_neg hb0]; exact h.symm
    rw [List.map_cons, createModules, if_pos hmem, hkey]
    have := ih (pre ++ [n]) (by simpa using hs) (by
      intro m hm
      obtain ⟨a, b, c⟩ := hcl m (List.mem_cons_of_mem _ hm)
      exact ⟨a, b, by simpa using c⟩)
    simpa using this

theorem not_colons_of_prefix {a b : Str} (h : a <+: b) (hb : ¬ c!"::" <+: b) : ¬ c!"::" <+: a := fun h' => hb (h'.trans h)

theorem createModules_all {bs : List SortItem} (hns : ∀ b ∈ bs, b.code ≠ [] → ¬ c!"::" <+: b.decl.ns) :
    createModules [[]] (subModules (allNestedNamespaces bs)) = some ([] :: allNestedNamespaces bs) := by
  have hne : ∀ n ∈ allNestedNamespaces bs, n ≠ [] := by
    intro n hn
    obtain ⟨b, _, _, h⟩ := mem_allNested.1 hn
    exact ancestors_ne h
  have hfil : (allNestedNamespaces bs).filter (·.length != 0) = allNestedNamespaces bs := by
    rw [List.filter_eq_self]
    intro n hn; simpa using hne n hn
  unfold subModules
  rw [hfil]
  have := createModules_aux [] (allNestedNamespaces bs) (sorted_setOf _) (by
    intro n hn
    obtain ⟨b, hb, hc, h⟩ := mem_allNested.1 hn
    refine ⟨hne n hn, not_colons_of_prefix (ancestors_prefix h) (hns b hb hc), ?_⟩
    rcases ancestors_base (Nat.le_refl _) h with h | h
    · exact .inl h
    · exact .inr (mem_allNested.2 ⟨b, hb, hc, h⟩))
  simpa using this

/-! ## Namespace paths -/

theorem joinNs_concat (xs : List Str) (x : Str) :
    joinNs (xs ++ [x]) = if xs = [] then x else joinNs xs ++ c!"::" ++ x := by
  induction xs with
  | nil => rfl
  | cons y ys ih =>
    cases ys with
    | nil => rfl
    | cons z zs =>
      rw [List.cons_append, List.cons_append, joinNs, ← List.cons_append, ih]
      simp [joinNs]

theorem rfind_colons {a x : Str} (hx : ':' ∉ x) : Str.rfind c!"::" (a ++ c!"::" ++ x) = some a.length := by
  rw [Str.rfind_eq_some_iff]
  refine ⟨by simp, by simp, ?_⟩
  intro j hj hl hp
  have hsplit : (a ++ c!"::" ++ x).drop j = (':' :: x).drop (j - a.length - 1) := by
    have : a ++ c!"::" ++ x = (a ++ [':']) ++ (':' :: x) := by simp
    rw [this, List.drop_append, List.drop_of_length_le (by simp; omega)]
    rw [List.nil_append, List.length_append, List.length_singleton, Nat.sub_sub]
  rw [hsplit] at hp
  obtain ⟨r, hr⟩ := hp
  generalize j - a.length - 1 = m at hr
  cases m with
  | zero => simp at hr; exact hx (by rw [← hr]; simp)
  | succ m =>
    simp only [List.drop_succ_cons] at hr
    exact hx (List.mem_of_mem_drop (i := m) (by rw [← hr]; simp))

theorem base_join {xs : List Str} {x : Str} (hx : ':' ∉ x) : baseNamespace (joinNs (xs ++ [x])) = joinNs xs := by
  rw [joinNs_concat]
  split
  · rename_i h; subst h
    have : Str.rfind c!"::" x = none := by
      rw [Str.rfind_eq_none_iff]
      rintro j _ ⟨r, hr⟩
      exact hx (List.mem_of_mem_drop (i := j) (by rw [← hr]; simp))
    simp [baseNamespace, this, joinNs]
  · unfold baseNamespace
    rw [rfind_colons hx]
    simp [Str.substr]

theorem joinNs_ne {xs : List Str} (h : xs ≠ []) (hc : ∀ x ∈ xs, IsComponent x) : joinNs xs ≠ [] := by
  cases xs with
  | nil => exact absurd rfl h
  | cons y ys =>
    have := (hc y (by simp)).1
    cases ys with
    | nil => exact this
    | cons z zs => simp [joinNs]

theorem ancestors_join (n : Nat) (xs : List Str) (hc : ∀ x ∈ xs, IsComponent x) (hn : (joinNs xs).length ≤ n) (m : Str) :
    m ∈ ancestors n (joinNs xs) ↔ AncestorOf xs m := by
  induction n generalizing xs with
  | zero =>
    have : joinNs xs = [] := List.length_eq_zero_iff.1 (by omega)
    have hx : xs = [] := by
      apply Classical.byContradiction; intro h; exact joinNs_ne h hc this
    subst hx
    simp [ancestors, AncestorOf]
    intro k h1 h2; omega
  | succ n ih =>
    rcases List.eq_nil_or_concat xs with rfl | ⟨ys, y, rfl⟩
    · simp [ancestors, AncestorOf, joinNs]
      intro k h1 h2; omega
    · rw [List.concat_eq_append] at *
      have hne := joinNs_ne (xs := ys ++ [y]) (by simp) hc
      have hcy : ':' ∉ y := (hc y (by simp)).2
      rw [ancestors, if_pos (by simpa using hne), base_join hcy, List.mem_cons]
      have hlt := baseNamespace_length _ hne
      rw [base_join hcy] at hlt
      rw [ih ys (fun x hx => hc x (by simp [hx])) (by omega)]
      constructor
      · rintro (rfl | ⟨k, h1, h2, h3⟩)
        · exact ⟨ys.length + 1, by omega, by simp, by rw [List.take_of_length_le (by simp)]⟩
        · exact ⟨k, h1, by simp; omega, by rw [h3, List.take_append_of_le_length h2]⟩
      · rintro ⟨k, h1, h2, h3⟩
        by_cases hk : k ≤ ys.length
        · exact .inr ⟨k, h1, hk, by rw [h3, List.take_append_of_le_length hk]⟩
        · left
          rw [h3, List.take_of_length_le (by simp; omega)]

/-! ## The `.modules` file -/

theorem replaceAll_space {a b : Str} : replaceAll (a ++ ' ' :: b) c!"::" c!"." = replaceAll a c!"::" c!"." ++ ' ' :: replaceAll b c!"::" c!"." := by
  unfold replaceAll
  have key : ∀ (n : Nat) (a : Str), a.length ≤ n →
      replaceGo c!"::" c!"." 0 (a ++ ' ' :: b) = replaceGo c!"::" c!"." 0 a ++ ' ' :: replaceGo c!"::" c!"." 0 b := by
    intro n
    induction n with
    | zero =>
      intro a ha
      have : a = [] := List.length_eq_zero_iff.1 (by omega)
      subst this
      simp only [List.nil_append]
      rw [replaceGo_miss (by rintro ⟨r, hr⟩; simp at hr)]
      simp [replaceGo]
    | succ n ih =>
      intro a ha
      match a, ha with
      | [], _ =>
        simp only [List.nil_append]
        rw [replaceGo_miss (by rintro ⟨r, hr⟩; simp at hr)]
        simp [replaceGo]
      | [x], _ =>
        simp only [List.cons_append, List.nil_append]
        rw [replaceGo_miss (by rintro ⟨r, hr⟩; simp at hr),
          replaceGo_miss (by rintro ⟨r, hr⟩; simp at hr), replaceGo_miss (by rintro ⟨r, hr⟩; simp at hr)]
        simp [replaceGo]
      | x :: y :: zs, ha =>
        by_cases h : x = ':' ∧ y = ':'
        · obtain ⟨rfl, rfl⟩ := h
          have h1 := replaceGo_hit (frm := c!"::") (to := c!".") (rest := zs ++ ' ' :: b) (by simp)
          have h2 := replaceGo_hit (frm := c!"::") (to := c!".") (rest := zs) (by simp)
          simp only [List.cons_append, List.nil_append] at h1 h2 ⊢
          rw [h1, h2, ih zs (by simp at ha; omega)]
          rfl
        · have hm : ∀ t : Str, ¬ c!"::" <+: x :: y :: t := by
            rintro t ⟨r, hr⟩
            simp at hr
            exact h ⟨hr.1.symm, hr.2.1.symm⟩
          simp only [List.cons_append]
          rw [replaceGo_miss (hm _), replaceGo_miss (hm _)]
          have := ih (y :: zs) (by simp at ha ⊢; omega)
          simp only [List.cons_append] at this
          rw [this]; rfl
  exact key a.length a (Nat.le_refl _)

theorem replaceAll_nil (frm to : Str) : replaceAll [] frm to = [] := by simp [replaceAll, replaceGo]

theorem modulesText_eq (nss : List Str) :
    modulesText nss = terminated ' ' (nss.map fun n => replaceAll n c!"::" c!".") := by
  unfold modulesText
  induction nss with
  | nil => simp [terminated, replaceAll_nil]
  | cons n ns ih =>
    have : (n :: ns).flatMap (fun n => n ++ c!" ") = n ++ ' ' :: ns.flatMap (fun n => n ++ c!" ") := by simp
    rw [this, replaceAll_space, ih]
    simp [terminated]

end Binder
