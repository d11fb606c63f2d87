import Verif.Lemmas.ImportModule

/-! What the generated functions contain, apart from traces, does not depend on how it is divided into files. -/

namespace Binder

open Cxx Spec

/-- No trace. -/
def Piece.kept : Piece → Bool
  | .trace _ _ => false
  | _ => true

/-- What remains to be emitted for a list of declarations; `seen` tells which namespaces have been entered before. -/
def restPieces (c : Config) (seen : Str → Bool) : List SortItem → List Piece
  | [] => []
  | b :: bs =>
    if b.code = [] then restPieces c seen bs
    else startBody c b.decl.ns (!seen b.decl.ns) ++ (if (c.binderForNamespaces b.decl.ns).isSome then [] else [.code b]) ++
      restPieces c (fun N => N == b.decl.ns || seen N) bs

theorem enter_seen {seen : Str → Bool} {ns : Str} (h : seen ns = true) : (fun N => N == ns || seen N) = seen := by
  funext N
  by_cases e : N = ns
  · simp [e, h]
  · simp [e]

theorem rest_enter (c : Config) (seen : Str → Bool) {b : SortItem} (l : List SortItem) (hb : b.code ≠ []) :
    restPieces c seen (b :: l) = startBody c b.decl.ns (!seen b.decl.ns) ++ restPieces c (fun N => N == b.decl.ns || seen N) (b :: l) := by
  simp only [restPieces, if_neg hb, beq_self_eq_true, Bool.true_or, Bool.not_true, startBody_not_first, List.nil_append, List.append_assoc]
  congr 3
  funext N
  cases (N == b.decl.ns) <;> simp

theorem rest_taken (c : Config) {seen : Str → Bool} {ns : Str} (h : seen ns = true) (xs l : List SortItem) (hx : ∀ x ∈ xs, x.decl.ns = ns)
    (o : Opts) (t : Nat) :
    restPieces c seen (xs ++ l) = (if (c.binderForNamespaces ns).isSome then [] else (emit o t xs).filter Piece.kept) ++ restPieces c seen l := by
  induction xs generalizing t with
  | nil => simp [emit]
  | cons x xs ih =>
    have e := hx x (by simp)
    have ih := fun t => ih (fun y hy => hx y (by simp [hy])) t
    rw [List.cons_append, restPieces, e, h, enter_seen h, ih (if o.trace then t + 1 else t)]
    by_cases hc : x.code = []
    · rw [if_pos hc]
      cases (c.binderForNamespaces ns).isSome <;> cases ht : o.trace <;> simp [emit, entry, hc, ht, Piece.kept, List.filter_cons]
    · rw [if_neg hc]
      cases (c.binderForNamespaces ns).isSome <;> cases ht : o.trace <;> simp [emit, entry, hc, ht, Piece.kept, startBody_not_first, List.filter_cons]

theorem startBody_kept (c : Config) (ns : Str) (first : Bool) : (startBody c ns first).filter Piece.kept = startBody c ns first := by
  rw [List.filter_eq_self]
  intro p hp
  cases p with
  | trace n id => exact absurd hp (startBody_no_trace _ _)
  | _ => rfl

theorem gen_pieces {c : Config} {o : Opts} {bs : List SortItem} (hn : bs.length + 1 < 2 ^ 32) {files : List OutFile}
    (hr : Loop.Returns (genStep c o bs) GenState.init files) :
    (files.flatMap (·.body)).filter Piece.kept = restPieces c (fun _ => false) bs := by
  obtain ⟨s, h1, h2, h3⟩ := gen_induct hn
    (fun s => (s.files.flatMap (·.body)).filter Piece.kept ++ restPieces c (fun N => s.entrance N != 0) (bs.drop s.i) =
      restPieces c (fun _ => false) bs) (by simp [GenState.init])
    (by
      intro s b hP hb hc
      show _ ++ restPieces c _ (bs.drop (s.i + 1)) = _
      have hd : bs.drop s.i = b :: bs.drop (s.i + 1) := by
        obtain ⟨hlt, e⟩ := List.getElem?_eq_some_iff.1 hb
        rw [← e]; exact List.drop_eq_getElem_cons hlt
      rw [hd, restPieces, if_pos hc] at hP
      exact hP)
    (by
      intro s s' b F k hP hb hc hw
      show (s'.files.flatMap (·.body)).filter Piece.kept ++ restPieces c (fun N => s'.entrance N != 0) (bs.drop s'.i) = _
      have hd : bs.drop s.i = b :: bs.drop (s.i + 1) := by
        obtain ⟨hlt, e⟩ := List.getElem?_eq_some_iff.1 hb
        rw [← e]; exact List.drop_eq_getElem_cons hlt
      have hd' : bs.drop s'.i = bs.drop (s.i + k) := by
        rcases hw.i with e | ⟨e1, e2⟩
        · rw [e]
        · rw [e2, e1, List.drop_eq_nil_of_le (by omega), List.drop_eq_nil_of_le (by omega)]
      have hseen : (fun N => s'.entrance N != 0) = fun N => N == b.decl.ns || (s.entrance N != 0) := by
        funext N
        rw [hw.entrance]
        unfold bump
        by_cases e : N = b.decl.ns
        · subst e; simp
        · simp [e]
      have hsplit : bs.drop s.i = (bs.drop s.i).take k ++ bs.drop (s.i + k) := by
        rw [← List.drop_drop, List.take_append_drop]
      rw [hw.files, hd', hseen, List.flatMap_append, List.filter_append, ← hP]
      simp only [List.flatMap_cons, List.flatMap_nil, List.append_nil, List.append_assoc]
      congr 1
      rw [hw.body, List.filter_append, startBody_kept, hd, rest_enter c _ _ hc, ← hd, hsplit,
        rest_taken c (ns := b.decl.ns) (by simp) _ _ hw.taken o s.traced, ← hsplit, List.append_assoc]
      have : (s.entrance b.decl.ns == 0) = !(s.entrance b.decl.ns != 0) := by simp [bne]
      rw [this]
      split <;> simp)
    hr
  rw [← h3, ← h1, List.drop_eq_nil_of_le h2]
  simp [restPieces]

end Binder
