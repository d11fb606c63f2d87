import Verif.Basic.Str

/-!
# `std::set<std::string>`

A set of strings is the list of its elements in iteration order: strictly increasing in the lexicographic order of characters
(`std::char_traits<char>::compare` compares bytes as unsigned numbers, which is the order of `Char` codes).
-/

namespace Binder

/-- `s.insert(x)`. -/
def setInsert (x : Str) : List Str → List Str
  | [] => [x]
  | y :: ys => if x < y then x :: y :: ys else if x = y then y :: ys else y :: setInsert x ys

/-- A set built by inserting the elements of a range one after the other. -/
def setOf (xs : List Str) : List Str := xs.foldl (fun s x => setInsert x s) []

theorem strLt_trans {a b c : Str} (h : a < b) (h' : b < c) : a < c := List.lt_trans h h'

theorem strLt_irrefl (a : Str) : ¬ a < a := List.lt_irrefl a

theorem strLt_of_not {a b : Str} (h : ¬ a < b) (h' : a ≠ b) : b < a := by
  have h1 : b ≤ a := List.not_lt.1 h
  apply Classical.byContradiction
  intro h2
  exact h' (List.le_antisymm (List.not_lt.1 h2) h1)

theorem mem_setInsert {x z : Str} {ys : List Str} : z ∈ setInsert x ys ↔ z = x ∨ z ∈ ys := by
  induction ys with
  | nil => simp [setInsert]
  | cons y ys ih =>
    simp only [setInsert]
    split
    · simp
    · split
      · rename_i h; subst h; simp
      · simp [ih]; constructor <;> (rintro (h | h | h) <;> simp [h])

theorem sorted_setInsert {x : Str} {ys : List Str} (h : ys.Pairwise (· < ·)) : (setInsert x ys).Pairwise (· < ·) := by
  induction ys with
  | nil => simp [setInsert]
  | cons y ys ih =>
    rw [List.pairwise_cons] at h
    simp only [setInsert]
    split
    · rename_i hlt
      refine List.pairwise_cons.2 ⟨?_, List.pairwise_cons.2 h⟩
      intro z hz
      rcases List.mem_cons.1 hz with rfl | hz
      · exact hlt
      · exact strLt_trans hlt (h.1 z hz)
    · split
      · exact List.pairwise_cons.2 h
      · rename_i h1 h2
        refine List.pairwise_cons.2 ⟨?_, ih h.2⟩
        intro z hz
        rcases mem_setInsert.1 hz with rfl | hz
        · exact strLt_of_not h1 h2
        · exact h.1 z hz

theorem mem_foldl_setInsert {z : Str} {xs acc : List Str} :
    z ∈ xs.foldl (fun s x => setInsert x s) acc ↔ z ∈ xs ∨ z ∈ acc := by
  induction xs generalizing acc with
  | nil => simp
  | cons x xs ih =>
    rw [List.foldl_cons, ih, mem_setInsert]
    simp; constructor
    · rintro (h | h | h) <;> simp [h]
    · rintro ((h | h) | h) <;> simp [h]

theorem sorted_foldl_setInsert {xs acc : List Str} (h : acc.Pairwise (· < ·)) :
    (xs.foldl (fun s x => setInsert x s) acc).Pairwise (· < ·) := by
  induction xs generalizing acc with
  | nil => exact h
  | cons x xs ih => exact ih (sorted_setInsert h)

theorem mem_setOf {z : Str} {xs : List Str} : z ∈ setOf xs ↔ z ∈ xs := by
  unfold setOf; rw [mem_foldl_setInsert]; simp

theorem sorted_setOf (xs : List Str) : (setOf xs).Pairwise (· < ·) := sorted_foldl_setInsert List.Pairwise.nil

theorem nodup_of_sorted {l : List Str} (h : l.Pairwise (· < ·)) : l.Nodup :=
  h.imp (fun {a b} hab he => by subst he; exact strLt_irrefl a hab)

/-- Two strictly increasing lists with the same elements are equal. -/
theorem sorted_ext {a b : List Str} (ha : a.Pairwise (· < ·)) (hb : b.Pairwise (· < ·)) (h : ∀ z, z ∈ a ↔ z ∈ b) : a = b := by
  induction a generalizing b with
  | nil =>
    cases b with
    | nil => rfl
    | cons y ys => have := (h y).2 (by simp); simp at this
  | cons x xs ih =>
    cases b with
    | nil => have := (h x).1 (by simp); simp at this
    | cons y ys =>
      rw [List.pairwise_cons] at ha hb
      have hxy : x = y := by
        have h1 := (h x).1 (by simp)
        have h2 := (h y).2 (by simp)
        rcases List.mem_cons.1 h1 with h1 | h1
        · exact h1
        · rcases List.mem_cons.1 h2 with h2 | h2
          · exact h2.symm
          · exact absurd (strLt_trans (hb.1 x h1) (ha.1 y h2)) (strLt_irrefl y)
      subst hxy
      congr 1
      apply ih ha.2 hb.2
      intro z
      constructor
      · intro hz
        rcases List.mem_cons.1 ((h z).1 (List.mem_cons_of_mem _ hz)) with rfl | h'
        · exact absurd (ha.1 z hz) (strLt_irrefl z)
        · exact h'
      · intro hz
        rcases List.mem_cons.1 ((h z).2 (List.mem_cons_of_mem _ hz)) with rfl | h'
        · exact absurd (hb.1 z hz) (strLt_irrefl z)
        · exact h'

end Binder
