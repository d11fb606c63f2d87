import Verif.Props.Includes
import Verif.Spec.Headers

/-!
# C108: declarations of the standard library bring a public header that declares them
-/

namespace Binder

open Cxx Spec

variable (E : Env)

/-- A table, line by line. -/
def entries (table : List (Str × List Str)) : List (Str × Str) := table.flatMap fun p => p.2.map fun x => (p.1, x)

theorem mem_entries {table : List (Str × List Str)} {header x : Str} : (header, x) ∈ entries table ↔ Lists table header x := by
  simp only [entries, List.mem_flatMap, List.mem_map, Prod.mk.injEq, Lists]
  constructor
  · rintro ⟨⟨h, xs⟩, hp, y, hy, rfl, rfl⟩; exact ⟨xs, hp, hy⟩
  · rintro ⟨xs, hp, hx⟩; exact ⟨(header, xs), hp, x, hx, rfl, rfl⟩

/-- The header found for a name, whatever the file it comes from. -/
def headerOfName (n : Str) : Option Str :=
  match includeTypeMap.find? (fun p => p.1 == n) with
  | some p => some p.2
  | none => (includeNameMap.find? (fun p => beginsWith n p.1)).map (·.2)

theorem includesForName_named {name incl h : Str} (hh : headerOfName (stdName E name) = some h) :
    includesForName E name incl = [annotatedLine E name h] := by
  rw [headerOfName] at hh
  rw [includesForName]
  simp only [annotatedLine]
  cases e : includeTypeMap.find? (fun p => p.1 == stdName E name) with
  | some p => rw [e] at hh; simp only [Option.some.injEq] at hh; subst hh; rfl
  | none =>
    rw [e] at hh
    simp only at hh ⊢
    cases e2 : includeNameMap.find? (fun p => beginsWith (stdName E name) p.1) with
    | none => rw [e2] at hh; cases hh
    | some p => rw [e2] at hh; simp only [Option.map_some, Option.some.injEq] at hh; subst hh; rfl

/-- C108, partial: for the listed names of the standard library, wherever they are found, the include line names the header in which the
standard declares them. Exceptions: functions whose names begin like that of a container, `set_...` (`C108_prefix_false`). -/
theorem C108_names_partial (name incl header : Str) (h : Lists synopsis header (stdName E name))
    (hset : ¬ c!"std::set_" <+: stdName E name) : includesForName E name incl = [annotatedLine E name header] := by
  have key : ∀ p ∈ entries synopsis, ¬ c!"std::set_" <+: p.2 → headerOfName p.2 = some p.1 := by decide +kernel
  exact includesForName_named E (key (header, stdName E name) (mem_entries.2 h) hset)

/-- C108 fails for `std::set_terminate`, `std::set_new_handler`, `std::set_union`: they are taken for members of `<set>`. -/
theorem C108_prefix_false (name incl : Str) (h : stdName E name = c!"std::set_terminate") :
    Lists synopsis c!"<exception>" (stdName E name) ∧ ¬ Lists synopsis c!"<set>" (stdName E name) ∧
      includesForName E name incl = [annotatedLine E name c!"<set>"] := by
  refine ⟨?_, ?_, includesForName_named E ?_⟩
  · rw [h, ← mem_entries]; decide +kernel
  · rw [h, ← mem_entries]; decide +kernel
  · rw [h]; decide +kernel

/-- The internal headers for which the table names a public header that does not include them. -/
def misplaced : List Str := [c!"<bits/sched.h>", c!"<bits/gthr-default.h>", c!"<bits/streambuf_iterator.h>", c!"<__tree>"]

/-- C108, partial: a declaration from an internal header of the standard library, whose name is in none of the tables of names, brings a
public header that includes the internal one. Exceptions: `misplaced`, see `C108_internal_false`. -/
theorem C108_internal_partial (name incl : Str) (hi : Internal incl) (hm : incl ∉ misplaced) (hn : headerOfName (stdName E name) = none) :
    ∃ header, Lists includedBy header incl ∧ includesForName E name incl = [annotatedLine E name header] := by
  have key : ∀ p ∈ entries includedBy, p.2 ∉ misplaced →
      ∃ q ∈ includeFileMap, includeFileMap.find? (fun q => p.2 == q.1) = some q ∧ (q.2, p.2) ∈ entries includedBy ∧ q.2 ≠ [] := by
    decide +kernel
  obtain ⟨h0, hl⟩ := hi
  obtain ⟨q, -, hq, hin, hne⟩ := key _ (mem_entries.2 hl) hm
  refine ⟨q.2, mem_entries.1 hin, ?_⟩
  rw [headerOfName] at hn
  rw [includesForName]
  cases e : includeTypeMap.find? (fun p => p.1 == stdName E name) with
  | some p => rw [e] at hn; cases hn
  | none =>
    rw [e] at hn
    simp only at hn ⊢
    cases e2 : includeNameMap.find? (fun p => beginsWith (stdName E name) p.1) with
    | some p => rw [e2] at hn; cases hn
    | none =>
      simp only at hq
      simp only [hq, annotatedLine]
      rw [if_neg (by simpa using hne)]

/-- C108 fails for four internal headers: `std::istreambuf_iterator` is declared in `<bits/streambuf_iterator.h>`, which is included by
`<iterator>`, but the line is `<streambuf>`; for `<bits/sched.h>` it is `<unistd.h>`, for `<__tree>` it is `<iterator>`. -/
theorem C108_internal_false (name : Str) (hn : headerOfName (stdName E name) = none) :
    (includesForName E name c!"<bits/streambuf_iterator.h>" = [annotatedLine E name c!"<streambuf>"] ∧
      Lists includedBy c!"<iterator>" c!"<bits/streambuf_iterator.h>" ∧ ¬ Lists includedBy c!"<streambuf>" c!"<bits/streambuf_iterator.h>") ∧
    (includesForName E name c!"<bits/sched.h>" = [annotatedLine E name c!"<unistd.h>"] ∧
      Lists includedBy c!"<sched.h>" c!"<bits/sched.h>" ∧ ¬ Lists includedBy c!"<unistd.h>" c!"<bits/sched.h>") ∧
    (includesForName E name c!"<__tree>" = [annotatedLine E name c!"<iterator>"] ∧
      Lists includedBy c!"<map>" c!"<__tree>" ∧ ¬ Lists includedBy c!"<iterator>" c!"<__tree>") := by
  have key : ∀ incl h : Str, (includeFileMap.find? (fun q => incl == q.1)).map (·.2) = some h → h ≠ [] →
      includesForName E name incl = [annotatedLine E name h] := by
    intro incl h hf hne
    rw [headerOfName] at hn
    rw [includesForName]
    cases e : includeTypeMap.find? (fun p => p.1 == stdName E name) with
    | some p => rw [e] at hn; cases hn
    | none =>
      rw [e] at hn
      simp only at hn ⊢
      cases e2 : includeNameMap.find? (fun p => beginsWith (stdName E name) p.1) with
      | some p => rw [e2] at hn; cases hn
      | none =>
        obtain ⟨q, hq, rfl⟩ := Option.map_eq_some_iff.1 hf
        simp only [hq, annotatedLine]
        rw [if_neg (by simpa using hne)]
  simp only [← mem_entries]
  refine ⟨⟨key _ _ (by decide +kernel) (by decide), by decide +kernel, by decide +kernel⟩,
    ⟨key _ _ (by decide +kernel) (by decide), by decide +kernel, by decide +kernel⟩,
    ⟨key _ _ (by decide +kernel) (by decide), by decide +kernel, by decide +kernel⟩⟩

/-- Cases: `std::vector`, and `std::istreambuf_iterator`, whose name is in no table. -/
example : includesForName exampleEnv c!"std::vector" c!"<bits/stl_vector.h>" = [c!"<vector>"] ∧
    includesForName exampleEnv c!"std::hash" c!"<bits/functional_hash.h>" = [c!"<functional>"] ∧
    headerOfName (stdName exampleEnv c!"std::istreambuf_iterator") = none := by decide +kernel

example : Internal c!"<bits/functional_hash.h>" ∧ c!"<bits/functional_hash.h>" ∉ misplaced ∧
    Lists synopsis c!"<vector>" (stdName exampleEnv c!"std::vector") :=
  ⟨⟨c!"<functional>", mem_entries.1 (by decide +kernel)⟩, by decide, mem_entries.1 (by decide +kernel)⟩

end Binder
